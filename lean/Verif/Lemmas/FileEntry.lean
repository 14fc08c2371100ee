import Verif.Model.FileEntry
import Verif.Spec.FileEntry
import Verif.Lemmas.FsTree
import Verif.Props.C38
/-!
# Lemmas about file entries
-/
namespace Verif
open Res Spec
namespace FileEntry
open Records (Attribute)
open FsTree (readAll)
open BTree (rdLE_field rdN_slice)

/-- what the reader makes of an extended attribute -/
def attr (x : XAttr) : Attribute where
  name := x.name ++ [0]
  flags := if x.stream.isNone then 2 else 1
  data := if x.stream.isNone ∧ x.value ≠ [] then some x.value else none
  stream := match x.stream with | none => 0 | some s => s.1
  size := x.value.length

theorem readAttribute_record {x : XAttr} (h : x.Fits) (identifier : Nat) : Records.readAttribute (x.record identifier) = ok (attr x) := by
  obtain ⟨name, value, stream⟩ := x
  unfold XAttr.Fits at h
  unfold XAttr.record attr
  cases stream with
  | none =>
    simp only at h ⊢
    cases value with
    | nil => exact Props.c38_empty identifier _ (by simp) (by simp; omega) 2 (by omega) (by omega)
    | cons a l => exact Props.c38_embedded identifier _ (by simp) (by simp; omega) 2 (by omega) (by omega) (by omega) _ (by simp) h.2
  | some s =>
    obtain ⟨id, rest⟩ := s
    simp only at h ⊢
    exact Props.c38_stream identifier _ (by simp) (by simp; omega) 1 (by omega) (by omega) _ _ h.2.1 h.2.2.1 _ h.2.2.2

theorem readAll_records (identifier : Nat) : ∀ xs : List XAttr, (∀ x ∈ xs, x.Fits) → readAll Records.readAttribute (xs.map (·.record identifier)) = ok (xs.map attr)
  | [], _ => rfl
  | x :: xs, h => by
    simp only [List.map_cons, readAll]
    rw [readAttribute_record (h x (by simp)), ok_bind, readAll_records identifier xs fun y hy => h y (by simp [hy])]
    rfl

/-- the environment answers from the file, or fails -/
structure Faithful (f : StoredFile) (env : Env) : Prop where
  attributes : env.attributes = err ∨ env.attributes = readAll Records.readAttribute (f.attributes.map (·.record f.identifier))
  compare : ∀ x ∈ f.attributes, ∀ s, env.compare (x.name ++ [0]) s = err ∨ env.compare (x.name ++ [0]) s = ok (decide (x.name = s))
  extentData : ∀ x ∈ f.attributes, ∀ s ∈ x.stream, env.extentData s.1 x.value.length = err ∨ env.extentData s.1 x.value.length = ok x.value
  buffer : env.buffer ≠ ub
  extents : env.extents ≠ ub
  stream : env.stream ≠ ub

/-- the environment answers from the file -/
structure Healthy (f : StoredFile) (env : Env) : Prop where
  attributes : env.attributes = readAll Records.readAttribute (f.attributes.map (·.record f.identifier))
  compare : ∀ x ∈ f.attributes, ∀ s, env.compare (x.name ++ [0]) s = ok (decide (x.name = s))
  extentData : ∀ x ∈ f.attributes, ∀ s ∈ x.stream, env.extentData s.1 x.value.length = ok x.value
  buffer : env.buffer = ok ()
  extents : env.extents = ok ()
  stream : env.stream = ok ()

theorem Healthy.faithful {f : StoredFile} {env : Env} (h : Healthy f env) : Faithful f env :=
  ⟨Or.inr h.attributes, fun x hx s => Or.inr (h.compare x hx s), fun x hx s hs => Or.inr (h.extentData x hx s hs),
    by rw [h.buffer]; simp, by rw [h.extents]; simp, by rw [h.stream]; simp⟩

theorem content_spec {f : StoredFile} {env : Env} (hv : f.Valid) (he : Faithful f env) {x : XAttr} (hx : x ∈ f.attributes) :
    (content env (attr x) = err ∨ content env (attr x) = ok (some x.value)) ∧ (Healthy f env → content env (attr x) = ok (some x.value)) := by
  have hfit := hv.fits x hx
  have hd := he.extentData x hx
  have hdh : Healthy f env → ∀ s ∈ x.stream, env.extentData s.1 x.value.length = ok x.value := fun h => h.extentData x hx
  obtain ⟨name, value, stream⟩ := x
  unfold XAttr.Fits at hfit
  unfold content attr
  cases stream with
  | none =>
    simp only at hfit
    simp only [Option.isNone_none, ↓reduceIte]
    rw [if_neg (by decide), if_pos (by decide)]
    by_cases hn : value = []
    · subst hn
      simp only [ne_eq, not_true_eq_false, and_false, ↓reduceIte]
      rw [require_true (by simp), ok_bind]
      constructor
      · cases hb : env.buffer with
        | ok u => exact Or.inr rfl
        | err => exact Or.inl rfl
        | ub => exact absurd hb he.buffer
      · intro h
        rw [h.buffer]
        rfl
    · rw [if_pos ⟨trivial, hn⟩]
      simp only
      rw [require_true (by omega), ok_bind, if_pos (Nat.le_refl _), List.take_length]
      constructor
      · cases hb : env.buffer with
        | ok u => exact Or.inr rfl
        | err => exact Or.inl rfl
        | ub => exact absurd hb he.buffer
      · intro h
        rw [h.buffer]
        rfl
  | some s =>
    simp only [Option.isNone_some, Bool.false_eq_true, ↓reduceIte]
    rw [if_pos (by decide)]
    constructor
    · rcases hd s rfl with h | h
      · rw [h]
        exact Or.inl rfl
      · rw [h]
        exact Or.inr rfl
    · intro h
      rw [hdh h s rfl]
      rfl

/-- the last of the attributes with a name, as the scan leaves it -/
def upd (array : Nat) (name : Bytes) : List XAttr → Option Ptr → Option Ptr
  | [], old => old
  | x :: xs, old => upd array name xs (if x.name = name then some ⟨array, attr x⟩ else old)

theorem decmpfs_ne_fork : decmpfsName ≠ forkName := by decide
theorem decmpfs_ne_symlink : decmpfsName ≠ symlinkName := by decide
theorem fork_ne_symlink : forkName ≠ symlinkName := by decide

theorem scan_spec {f : StoredFile} {env : Env} (he : Faithful f env) : ∀ (xs : List XAttr) (e : Entry), (∀ x ∈ xs, x ∈ f.attributes) →
    (scan env (xs.map attr) e).1 ≠ ub ∧ (Healthy f env → (scan env (xs.map attr) e).1 = ok ()) ∧
    ∃ ys zs, xs = ys ++ zs ∧ ((scan env (xs.map attr) e).1 = ok () → zs = []) ∧
      (scan env (xs.map attr) e).2 = { e with compressed := upd e.array decmpfsName ys e.compressed, fork := upd e.array forkName ys e.fork, symlink := upd e.array symlinkName ys e.symlink }
  | [], e, _ => ⟨by simp [scan], fun _ => rfl, [], [], rfl, fun _ => rfl, rfl⟩
  | x :: xs, e, h => by
    have hstop : ∀ {r : Res Unit}, r = err → r ≠ ok () := by intro r h; rw [h]; simp
    have hrest := fun y hy => h y (List.mem_cons_of_mem x hy)
    have hx := h x (by simp)
    have hext : ∀ e' : Entry, e'.array = e.array →
        (scan env ((x :: xs).map attr) e = scan env (xs.map attr) e') →
        ({ e' with compressed := e.compressed, fork := e.fork, symlink := e.symlink } : Entry) = e →
        e'.compressed = (if x.name = decmpfsName then some ⟨e.array, attr x⟩ else e.compressed) →
        e'.fork = (if x.name = forkName then some ⟨e.array, attr x⟩ else e.fork) →
        e'.symlink = (if x.name = symlinkName then some ⟨e.array, attr x⟩ else e.symlink) →
        (scan env ((x :: xs).map attr) e).1 ≠ ub ∧ (Healthy f env → (scan env ((x :: xs).map attr) e).1 = ok ()) ∧
        ∃ ys zs, x :: xs = ys ++ zs ∧ ((scan env ((x :: xs).map attr) e).1 = ok () → zs = []) ∧
          (scan env ((x :: xs).map attr) e).2 = { e with compressed := upd e.array decmpfsName ys e.compressed, fork := upd e.array forkName ys e.fork, symlink := upd e.array symlinkName ys e.symlink } := by
      intro e' ha hs hsame h1 h2 h3
      rw [hs]
      obtain ⟨i1, i2, ys, zs, i3, i4, i5⟩ := scan_spec he xs e' hrest
      refine ⟨i1, i2, x :: ys, zs, by rw [i3]; rfl, i4, ?_⟩
      rw [i5, ha]
      simp only [upd]
      rw [h1, h2, h3]
      rw [← hsame]
    have hfail : scan env ((x :: xs).map attr) e = (err, e) → ¬ Healthy f env →
        (scan env ((x :: xs).map attr) e).1 ≠ ub ∧ (Healthy f env → (scan env ((x :: xs).map attr) e).1 = ok ()) ∧
        ∃ ys zs, x :: xs = ys ++ zs ∧ ((scan env ((x :: xs).map attr) e).1 = ok () → zs = []) ∧
          (scan env ((x :: xs).map attr) e).2 = { e with compressed := upd e.array decmpfsName ys e.compressed, fork := upd e.array forkName ys e.fork, symlink := upd e.array symlinkName ys e.symlink } := by
      intro hs hn
      rw [hs]
      exact ⟨by simp, fun h => absurd h hn, [], x :: xs, rfl, by simp, rfl⟩
    have hn : (attr x).name = x.name ++ [0] := rfl
    rcases he.compare x hx decmpfsName with c1 | c1
    · refine hfail (by simp only [List.map_cons, scan]; rw [hn, c1]) fun hh => ?_
      rw [hh.compare x hx] at c1
      cases c1
    · by_cases d1 : x.name = decmpfsName
      · rw [decide_eq_true d1] at c1
        refine hext { e with compressed := some ⟨e.array, attr x⟩ } rfl (by simp only [List.map_cons, scan]; rw [hn, c1]) rfl ?_ ?_ ?_
        · rw [if_pos d1]
        · rw [if_neg (by rw [d1]; exact decmpfs_ne_fork)]
        · rw [if_neg (by rw [d1]; exact decmpfs_ne_symlink)]
      · rw [decide_eq_false d1] at c1
        rcases he.compare x hx forkName with c2 | c2
        · refine hfail (by simp only [List.map_cons, scan]; rw [hn, c1, c2]) fun hh => ?_
          rw [hh.compare x hx] at c2
          cases c2
        · by_cases d2 : x.name = forkName
          · rw [decide_eq_true d2] at c2
            refine hext { e with fork := some ⟨e.array, attr x⟩ } rfl (by simp only [List.map_cons, scan]; rw [hn, c1, c2]) rfl ?_ ?_ ?_
            · rw [if_neg d1]
            · rw [if_pos d2]
            · rw [if_neg (by rw [d2]; exact fork_ne_symlink)]
          · rw [decide_eq_false d2] at c2
            rcases he.compare x hx symlinkName with c3 | c3
            · refine hfail (by simp only [List.map_cons, scan]; rw [hn, c1, c2, c3]) fun hh => ?_
              rw [hh.compare x hx] at c3
              cases c3
            · by_cases d3 : x.name = symlinkName
              · rw [decide_eq_true d3] at c3
                refine hext { e with symlink := some ⟨e.array, attr x⟩ } rfl (by simp only [List.map_cons, scan]; rw [hn, c1, c2, c3]) rfl ?_ ?_ ?_
                · rw [if_neg d1]
                · rw [if_neg d2]
                · rw [if_pos d3]
              · rw [decide_eq_false d3] at c3
                refine hext e rfl (by simp only [List.map_cons, scan]; rw [hn, c1, c2, c3]) rfl ?_ ?_ ?_
                · rw [if_neg d1]
                · rw [if_neg d2]
                · rw [if_neg d3]

/-- the attribute with a name -/
def named (f : StoredFile) (name : Bytes) : Option XAttr := f.attributes.find? fun x => x.name = name

theorem named_mem {f : StoredFile} {name : Bytes} {x : XAttr} (h : named f name = some x) : x ∈ f.attributes := List.mem_of_find?_eq_some h

theorem attribute?_eq (f : StoredFile) (name : Bytes) : f.attribute? name = (named f name).map (·.value) := rfl

theorem upd_none (array : Nat) (name : Bytes) : ∀ (xs : List XAttr) (old : Option Ptr), xs.find? (fun x => x.name = name) = none → upd array name xs old = old
  | [], _, _ => rfl
  | x :: xs, old, h => by
    rw [List.find?_eq_none] at h
    have hx : ¬ x.name = name := by simpa using h x (by simp)
    rw [upd, if_neg hx]
    exact upd_none array name xs old (List.find?_eq_none.2 fun y hy => h y (by simp [hy]))

theorem upd_some (array : Nat) (name : Bytes) : ∀ (xs : List XAttr) (old : Option Ptr) (x : XAttr), xs.Pairwise (fun x y => x.name ≠ y.name) → xs.find? (fun x => x.name = name) = some x →
    upd array name xs old = some ⟨array, attr x⟩
  | y :: ys, old, x, hp, h => by
    rw [List.pairwise_cons] at hp
    rw [List.find?_cons] at h
    by_cases hy : y.name = name
    · rw [decide_eq_true hy] at h
      cases h
      rw [upd, if_pos hy]
      refine upd_none array name ys _ (List.find?_eq_none.2 fun z hz => ?_)
      have := hp.1 z hz
      rw [hy] at this
      simpa using fun h => this h.symm
    · rw [decide_eq_false hy] at h
      rw [upd, if_neg hy]
      exact upd_some array name ys old x hp.2 h

/-- a pointer points to the attribute with the name if the attributes are there; if not, it is NULL or will be overwritten -/
def PtrOk (f : StoredFile) (e : Entry) (name : Bytes) (p : Option Ptr) : Prop :=
  match e.attributes with
  | none => p = none ∨ (named f name).isSome
  | some _ => p = (named f name).map fun x => ⟨e.array, attr x⟩

theorem ptrOk_partial {f : StoredFile} (name : Bytes) (array : Nat) {xs ys zs : List XAttr} (hx : f.attributes = xs) (hs : xs = ys ++ zs) (old : Option Ptr)
    (ho : old = none ∨ (named f name).isSome) : upd array name ys old = none ∨ (named f name).isSome := by
  cases hf : ys.find? (fun x => x.name = name) with
  | none =>
    rw [upd_none array name ys old hf]
    exact ho
  | some x =>
    refine Or.inr ?_
    unfold named
    rw [hx, hs, List.find?_append, hf]
    rfl

theorem ptrOk_full {f : StoredFile} (hv : f.Valid) (name : Bytes) (array : Nat) (old : Option Ptr) (ho : old = none ∨ (named f name).isSome) :
    upd array name f.attributes old = (named f name).map fun x => ⟨array, attr x⟩ := by
  cases hf : f.attributes.find? (fun x => x.name = name) with
  | none =>
    rw [upd_none array name _ old hf]
    have : named f name = none := hf
    rw [this] at ho ⊢
    rcases ho with h | h
    · rw [h]; rfl
    · cases h
  | some x =>
    rw [upd_some array name _ old x hv.unique hf]
    have : named f name = some x := hf
    rw [this]
    rfl

/-- what the code makes of the data of a file -/
def actual (f : StoredFile) : Option Stream :=
  match f.kind with
  | .plain => some (.extents f.size f.sparse)
  | .damaged => none
  | .compressed m n =>
    if m = 3 then (f.attribute? decmpfs).map (.compressed · n 1)
    else if m = 4 then (f.attribute? resourceFork).map (.compressed · n 1)
    else if m = 5 then (f.attribute? decmpfs).map (.compressed · n 5)
    else if m = 7 then (f.attribute? decmpfs).map (.compressed · n 3)
    else if m = 8 then (f.attribute? resourceFork).map (.compressed · n 3)
    else none

/-- a target the code can return -/
def target? (f : StoredFile) : Option (Option Bytes) :=
  match f.attribute? symlink with
  | none => some none
  | some v => if v.length = 0 ∨ v.length > 2 ^ 27 then none else some (some v)

structure Inv (f : StoredFile) (e : Entry) : Prop where
  inodeSize : e.inodeSize = f.size
  sparse : decide (e.inodeFlags / 0x200 % 2 ≠ 0) = f.sparse
  attributes : e.attributes = none ∨ e.attributes = some (f.attributes.map attr)
  compressed : PtrOk f e decmpfsName e.compressed
  fork : PtrOk f e forkName e.fork
  symlink : PtrOk f e symlinkName e.symlink
  header : ∀ h ∈ e.header, e.attributes.isSome ∧ f.kind = .compressed h.1 h.2 ∧ e.size = h.2
  size : e.header = none → e.size ≠ 2 ^ 64 - 1 → f.kind = .plain ∧ e.size = f.size
  stream : ∀ s ∈ e.stream, actual f = some s
  target : ∀ t ∈ e.target, target? f = some (some t)

/-- the new entry differs only in the attributes -/
structure SameRest (e e' : Entry) : Prop where
  inodeSize : e'.inodeSize = e.inodeSize
  inodeFlags : e'.inodeFlags = e.inodeFlags
  header : e'.header = e.header
  size : e'.size = e.size
  stream : e'.stream = e.stream
  target : e'.target = e.target

theorem needAttributes_spec {f : StoredFile} {env : Env} {e : Entry} (hv : f.Valid) (hi : Inv f e) (he : Faithful f env) :
    ∃ r e', needAttributes env e = (r, e') ∧ r ≠ ub ∧ (Healthy f env → r = ok ()) ∧ Inv f e' ∧ SameRest e e' ∧ (r = ok () → e'.attributes = some (f.attributes.map attr)) := by
  unfold needAttributes
  rcases hi.attributes with ha | ha
  · rw [if_pos (by rw [ha]; rfl)]
    unfold getAttributes
    rw [if_neg (by rw [ha]; simp)]
    rcases he.attributes with hr | hr
    · rw [hr]
      refine ⟨err, e, rfl, by simp, ?_, hi, ⟨rfl, rfl, rfl, rfl, rfl, rfl⟩, by simp⟩
      intro hh
      rw [hh.attributes, readAll_records _ _ hv.fits] at hr
      cases hr
    · rw [hr, readAll_records _ _ hv.fits]
      simp only
      have hs := scan_spec he f.attributes { e with attributes := some (f.attributes.map attr), array := e.array + 1 } (fun x hx => hx)
      have hc := hi.compressed
      have hf := hi.fork
      have hl := hi.symlink
      unfold PtrOk at hc hf hl
      rw [ha] at hc hf hl
      simp only at hc hf hl
      have hnh : e.header = none := by
        cases hh : e.header with
        | none => rfl
        | some h =>
          have := (hi.header h hh).1
          rw [ha] at this
          cases this
      generalize hq : scan env (f.attributes.map attr) { e with attributes := some (f.attributes.map attr), array := e.array + 1 } = q at hs ⊢
      obtain ⟨r, e'⟩ := q
      obtain ⟨h1, h2, ys, zs, h3, h4, h5⟩ := hs
      simp only at h1 h2 h4 h5
      cases r with
      | ub => exact absurd rfl h1
      | ok u =>
        obtain rfl := h4 rfl
        rw [List.append_nil] at h3
        subst h3
        refine ⟨ok (), e', rfl, by simp, fun _ => rfl, ?_, ?_, ?_⟩
        · rw [h5]
          exact ⟨hi.inodeSize, hi.sparse, Or.inr rfl, ptrOk_full hv _ _ _ hc, ptrOk_full hv _ _ _ hf, ptrOk_full hv _ _ _ hl,
            fun h hh => ⟨rfl, (hi.header h hh).2⟩, hi.size, hi.stream, hi.target⟩
        · rw [h5]
          exact ⟨rfl, rfl, rfl, rfl, rfl, rfl⟩
        · intro _
          rw [h5]
      | err =>
        refine ⟨err, { e' with attributes := none }, rfl, by simp, fun hh => (h2 hh), ?_, ?_, by simp⟩
        · rw [h5]
          exact ⟨hi.inodeSize, hi.sparse, Or.inl rfl, ptrOk_partial _ _ rfl h3 _ hc, ptrOk_partial _ _ rfl h3 _ hf, ptrOk_partial _ _ rfl h3 _ hl,
            fun h hh => absurd ((show e.header = some h from hh).symm.trans hnh) (by simp), hi.size, hi.stream, hi.target⟩
        · rw [h5]
          exact ⟨rfl, rfl, rfl, rfl, rfl, rfl⟩
  · rw [if_neg (by rw [ha]; simp)]
    exact ⟨ok (), e, rfl, by simp, fun _ => rfl, hi, ⟨rfl, rfl, rfl, rfl, rfl, rfl⟩, fun _ => ha⟩

theorem field4 (v : Bytes) : ((v.take 16).drop 4).take 4 = (v.drop 4).take 4 := by
  rw [List.drop_take, List.take_take]
  congr 1

theorem field8 (v : Bytes) : ((v.take 16).drop 8).take 8 = (v.drop 8).take 8 := by
  rw [List.drop_take, List.take_take]
  congr 1

theorem fpmc : "fpmc".toUTF8.toList = [0x66, 0x70, 0x6d, 0x63] := by decide +kernel

/-- the kind of a file with an attribute com.apple.decmpfs -/
def kindOf (v : Bytes) : Kind :=
  if v.length < 16 then .damaged
  else if v.take 4 = "fpmc".toUTF8.toList then .compressed (leNat ((v.drop 4).take 4)) (leNat ((v.drop 8).take 8))
  else .plain

theorem decmpfs_eq : decmpfs = decmpfsName := by decide +kernel
theorem fork_eq : resourceFork = forkName := by decide +kernel
theorem symlink_eq : Spec.symlink = symlinkName := by decide +kernel

theorem kind_eq (f : StoredFile) : f.kind = match named f decmpfsName with | none => .plain | some x => kindOf x.value := by
  unfold StoredFile.kind
  rw [decmpfs_eq, attribute?_eq]
  cases named f decmpfsName <;> rfl

theorem readHeader_spec (v : Bytes) (h : 16 ≤ v.length) :
    readHeader (v.take 16) = ok (match kindOf v with | .compressed m n => some (m, n) | _ => none) := by
  have hl : (v.take 16).length = 16 := by rw [List.length_take]; omega
  unfold readHeader kindOf
  rw [if_neg (by omega), require_true (by omega), ok_bind, rdN_slice (by omega), ok_bind]
  have h4 : slice (v.take 16) 0 4 = v.take 4 := by unfold slice; rw [List.drop_zero, List.take_take]; congr 1
  rw [h4, fpmc]
  by_cases hs : v.take 4 = [0x66, 0x70, 0x6d, 0x63]
  · rw [if_neg (by simpa using hs), if_pos hs]
    rw [rdLE_field (by omega), ok_bind, rdLE_field (by omega), ok_bind]
    unfold field slice
    rw [field4, field8]
    rfl
  · rw [if_pos hs, if_neg hs]
    rfl

theorem compressedHeader_spec {f : StoredFile} {env : Env} (hv : f.Valid) (he : Faithful f env) {x : XAttr} (hx : x ∈ f.attributes) :
    compressedHeader env (attr x) ≠ ub ∧
    (∀ r, compressedHeader env (attr x) = ok r → r = (match kindOf x.value with | .compressed m n => some (m, n) | _ => none) ∧ kindOf x.value ≠ .damaged) ∧
    (Healthy f env → kindOf x.value ≠ .damaged → ∃ r, compressedHeader env (attr x) = ok r) := by
  have hc := content_spec hv he hx
  have hd : kindOf x.value ≠ .damaged ↔ 16 ≤ x.value.length := by
    unfold kindOf
    split
    · constructor
      · intro h; exact absurd rfl h
      · omega
    · refine ⟨fun _ => by omega, fun _ => ?_⟩
      split <;> simp
  have hh : (16 ≤ x.value.length → headerOf (some x.value) = ok (match kindOf x.value with | .compressed m n => some (m, n) | _ => none)) ∧
      (¬ 16 ≤ x.value.length → headerOf (some x.value) = err) := by
    unfold headerOf
    simp only
    constructor
    · intro hl
      rw [require_true hl, ok_bind, readHeader_spec _ hl]
    · intro hl
      rw [require_false hl]
      rfl
  unfold compressedHeader
  by_cases hl : 16 ≤ x.value.length
  · refine ⟨?_, ?_, ?_⟩
    · rcases hc.1 with h | h
      · rw [h]; simp
      · rw [h, ok_bind, hh.1 hl]; simp
    · intro r hr
      rcases hc.1 with h | h
      · rw [h] at hr; cases hr
      · rw [h, ok_bind, hh.1 hl] at hr
        exact ⟨(Res.ok.inj hr).symm, hd.2 hl⟩
    · intro hq _
      rw [hc.2 hq, ok_bind]
      exact ⟨_, hh.1 hl⟩
  · refine ⟨?_, ?_, fun _ h => absurd (hd.1 h) hl⟩
    · rcases hc.1 with h | h
      · rw [h]; simp
      · rw [h, ok_bind, hh.2 hl]
        simp
    · intro r hr
      rcases hc.1 with h | h
      · rw [h] at hr; cases hr
      · rw [h, ok_bind, hh.2 hl] at hr
        cases hr

theorem deref_named {f : StoredFile} {e : Entry} (ha : e.attributes.isSome) {name : Bytes} {p : Option Ptr} (hp : PtrOk f e name p) :
    p = (named f name).map (fun x => ⟨e.array, attr x⟩) ∧ ∀ q ∈ p, ∃ x, named f name = some x ∧ deref e q = ok (attr x) := by
  unfold PtrOk at hp
  cases hh : e.attributes with
  | none => rw [hh] at ha; cases ha
  | some l =>
    rw [hh] at hp
    refine ⟨hp, fun q hq => ?_⟩
    rw [hp] at hq
    cases hn : named f name with
    | none => rw [hn] at hq; cases hq
    | some x =>
      rw [hn] at hq
      cases hq
      refine ⟨x, rfl, ?_⟩
      unfold deref
      rw [if_pos ⟨by rw [hh]; rfl, rfl⟩]

/-- nothing is read as the size that means unknown -/
def Known (f : StoredFile) : Prop := ∀ m n, f.kind = .compressed m n → n ≠ 2 ^ 64 - 1

theorem getDataSize_spec {f : StoredFile} {env : Env} {e : Entry} (hv : f.Valid) (hi : Inv f e) (he : Faithful f env) :
    ∃ r e', getDataSize env e = (r, e') ∧ r ≠ ub ∧ Inv f e' ∧ e'.stream = e.stream ∧
      (r = ok () → f.size? = some e'.size ∧ e'.attributes.isSome ∧ (∀ m n, f.kind = .compressed m n → e'.header = some (m, n)) ∧ (f.kind = .plain → e'.header = none)) ∧
      (Healthy f env → Known f → e.size = 2 ^ 64 - 1 → f.kind ≠ .damaged → r = ok ()) := by
  unfold getDataSize
  cases hh : e.header with
  | some h =>
    rw [if_pos (by simp)]
    refine ⟨err, e, rfl, by simp, hi, rfl, by simp, ?_⟩
    intro _ hk hs _
    have := hi.header h hh
    exact absurd (this.2.2.symm.trans hs) (hk _ _ this.2.1)
  | none =>
    rw [if_neg (by simp)]
    by_cases hs : e.size = 2 ^ 64 - 1
    · rw [if_neg (by simpa using hs)]
      obtain ⟨r, e', hn, h1, h2, h3, h4, h5⟩ := needAttributes_spec hv hi he
      rw [hn]
      cases r with
      | ub => exact absurd rfl h1
      | err => exact ⟨err, e', rfl, by simp, h3, h4.stream, by simp, fun hh _ _ _ => (h2 hh)⟩
      | ok u =>
        have ha := h5 rfl
        have hd := deref_named (by rw [ha]; rfl) h3.compressed
        have hh' : e'.header = none := h4.header.trans hh
        simp only
        cases hc : e'.compressed with
        | none =>
          have hnn : named f decmpfsName = none := by
            have := hd.1
            rw [hc] at this
            cases hq : named f decmpfsName with
            | none => rfl
            | some x => rw [hq] at this; cases this
          have hk : f.kind = .plain := by rw [kind_eq, hnn]
          have hpc : PtrOk f e' decmpfsName none := by rw [← hc]; exact h3.compressed
          refine ⟨ok (), _, rfl, by simp, ?_, h4.stream, ?_, fun _ _ _ _ => rfl⟩
          · exact ⟨h3.inodeSize, h3.sparse, h3.attributes, hpc, h3.fork, h3.symlink, fun h hx => absurd ((show e'.header = some h from hx).symm.trans hh') (by simp),
              fun _ _ => ⟨hk, h3.inodeSize⟩, h3.stream, h3.target⟩
          · intro _
            refine ⟨?_, by rw [ha]; rfl, fun m n h => (by rw [hk] at h; cases h), fun _ => hh'⟩
            unfold StoredFile.size?
            rw [hk]
            exact congrArg some h3.inodeSize.symm
        | some p =>
          obtain ⟨x, hx, hdx⟩ := hd.2 p (by rw [hc]; rfl)
          have hpc : PtrOk f e' decmpfsName (some p) := by rw [← hc]; exact h3.compressed
          have hk : f.kind = kindOf x.value := by rw [kind_eq, hx]
          obtain ⟨c1, c2, c3⟩ := compressedHeader_spec hv he (named_mem hx)
          simp only
          rw [hdx, ok_bind]
          cases hr : compressedHeader env (attr x) with
          | ub => exact absurd hr c1
          | err =>
            refine ⟨err, e', rfl, by simp, h3, h4.stream, by simp, ?_⟩
            intro hq _ _ hkd
            obtain ⟨r, hr'⟩ := c3 hq (by rw [← hk]; exact hkd)
            rw [hr] at hr'
            cases hr'
          | ok o =>
            obtain ⟨ho, hkd⟩ := c2 o hr
            rw [← hk] at ho hkd
            cases o with
            | none =>
              have hkp : f.kind = .plain := by
                cases hkk : f.kind with
                | plain => rfl
                | damaged => exact absurd hkk hkd
                | compressed m n => rw [hkk] at ho; cases ho
              refine ⟨ok (), _, rfl, by simp, ?_, h4.stream, ?_, fun _ _ _ _ => rfl⟩
              · exact ⟨h3.inodeSize, h3.sparse, h3.attributes, hpc, h3.fork, h3.symlink, fun h hx => absurd ((show e'.header = some h from hx).symm.trans hh') (by simp),
                  fun _ _ => ⟨hkp, h3.inodeSize⟩, h3.stream, h3.target⟩
              · intro _
                refine ⟨?_, by rw [ha]; rfl, fun m n h => (by rw [hkp] at h; cases h), fun _ => hh'⟩
                unfold StoredFile.size?
                rw [hkp]
                exact congrArg some h3.inodeSize.symm
            | some h =>
              obtain ⟨m, n⟩ := h
              have hkc : f.kind = .compressed m n := by
                cases hkk : f.kind with
                | plain => rw [hkk] at ho; cases ho
                | damaged => exact absurd hkk hkd
                | compressed m' n' =>
                  rw [hkk] at ho
                  cases ho
                  rfl
              refine ⟨ok (), _, rfl, by simp, ?_, h4.stream, ?_, fun _ _ _ _ => rfl⟩
              · refine ⟨h3.inodeSize, h3.sparse, h3.attributes, hpc, h3.fork, h3.symlink, ?_, fun h => (by cases h), h3.stream, h3.target⟩
                intro h hx
                cases hx
                exact ⟨by rw [ha]; rfl, hkc, rfl⟩
              · intro _
                refine ⟨?_, by rw [ha]; rfl, fun m' n' h => ?_, fun h => by rw [hkc] at h; cases h⟩
                · unfold StoredFile.size?
                  rw [hkc]
                · rw [hkc] at h
                  cases h
                  rfl
    · rw [if_pos hs]
      exact ⟨err, e, rfl, by simp, hi, rfl, by simp, fun _ _ h => absurd h hs⟩

theorem getSize_spec {f : StoredFile} {env : Env} {e : Entry} (hv : f.Valid) (hi : Inv f e) (he : Faithful f env) :
    (getSize env e).1 ≠ ub ∧ Inv f (getSize env e).2 ∧ (∀ n, (getSize env e).1 = ok n → f.size? = some n) ∧
      (Healthy f env → Known f → ∀ n, f.size? = some n → (getSize env e).1 = ok n) := by
  unfold getSize
  by_cases hs : e.size = 2 ^ 64 - 1
  · rw [if_pos hs]
    obtain ⟨r, e', hg, h1, h2, _, h3, h4⟩ := getDataSize_spec hv hi he
    rw [hg]
    cases r with
    | ub => exact absurd rfl h1
    | err =>
      refine ⟨by simp, h2, by simp, ?_⟩
      intro hh hk n hn
      have : f.kind ≠ .damaged := by
        intro hd
        unfold StoredFile.size? at hn
        rw [hd] at hn
        cases hn
      have := h4 hh hk hs this
      cases this
    | ok u =>
      have := (h3 rfl).1
      refine ⟨by simp, h2, ?_, ?_⟩
      · intro n hn
        cases hn
        exact this
      · intro _ _ n hn
        rw [this] at hn
        cases hn
        rfl
  · rw [if_neg hs]
    have : f.size? = some e.size := by
      unfold StoredFile.size?
      cases hh : e.header with
      | none =>
        obtain ⟨h1, h2⟩ := hi.size hh hs
        rw [h1, h2]
      | some h =>
        obtain ⟨_, h1, h2⟩ := hi.header h hh
        rw [h1, h2]
    refine ⟨by simp, hi, ?_, ?_⟩
    · intro n hn
      cases hn
      exact this
    · intro _ _ n hn
      rw [this] at hn
      cases hn
      rfl

theorem compressedStream_spec {f : StoredFile} {env : Env} {e : Entry} (hv : f.Valid) (hi : Inv f e) (he : Faithful f env) {m n : Nat} (hh : e.header = some (m, n)) :
    compressedStream env e m ≠ ub ∧ (∀ s, compressedStream env e m = ok s → actual f = some s) ∧
      (Healthy f env → ∀ s, actual f = some s → compressedStream env e m = ok s) := by
  obtain ⟨ha, hk, hsz⟩ := hi.header _ hh
  simp only at hk hsz
  have hc := deref_named ha hi.compressed
  have hf := deref_named ha hi.fork
  -- the part that depends only on the codec and where the data is
  have hpart : ∀ (codec : Nat) (name : Bytes) (p : Option Ptr), PtrOk f e name p →
      let r : Res Stream := (do
        let p ← notNull p
        let a ← deref e p
        let c ← content env a
        streamOf env e.size codec c)
      r ≠ ub ∧ (∀ s, r = ok s → (codec = 1 ∨ codec = 3 ∨ codec = 5) ∧ (f.attribute? name).map (.compressed · n codec) = some s) ∧
        (Healthy f env → (codec = 1 ∨ codec = 3 ∨ codec = 5) → ∀ s, (f.attribute? name).map (.compressed · n codec) = some s → r = ok s) := by
    intro codec name p hp
    have hd := deref_named ha hp
    have hp1 := hd.1
    cases hq : named f name with
    | none =>
      rw [hq] at hp1
      simp only [Option.map_none] at hp1
      subst hp1
      refine ⟨by simp [notNull], fun s h => (by cases h), fun _ _ s h => ?_⟩
      rw [attribute?_eq, hq] at h
      cases h
    | some x =>
      rw [hq] at hp1
      simp only [Option.map_some] at hp1
      subst hp1
      obtain ⟨y, hy, hdy⟩ := hd.2 _ rfl
      rw [hq] at hy
      cases hy
      have hx := named_mem hq
      simp only [notNull]
      rw [ok_bind, hdy, ok_bind, attribute?_eq, hq]
      have hso : (codec = 1 ∨ codec = 3 ∨ codec = 5) → streamOf env e.size codec (some x.value) = (do env.stream; return .compressed x.value n codec) := by
        intro hcd
        unfold streamOf
        simp only
        rw [require_true hcd, ok_bind, hsz]
      have hso' : ¬ (codec = 1 ∨ codec = 3 ∨ codec = 5) → streamOf env e.size codec (some x.value) = err := by
        intro hcd
        unfold streamOf
        simp only
        rw [require_false hcd]
        rfl
      obtain ⟨k1, k2⟩ := content_spec hv he hx
      by_cases hcd : codec = 1 ∨ codec = 3 ∨ codec = 5
      · refine ⟨?_, ?_, ?_⟩
        · rcases k1 with k | k
          · rw [k]; simp
          · rw [k, ok_bind, hso hcd]
            cases hs : env.stream with
            | ok u => simp
            | err => simp
            | ub => exact absurd hs he.stream
        · intro s hs
          rcases k1 with k | k
          · rw [k] at hs; cases hs
          · rw [k, ok_bind, hso hcd] at hs
            obtain ⟨u, _, hs⟩ := bind_eq_ok.1 hs
            cases hs
            exact ⟨hcd, rfl⟩
        · intro hq _ s hs
          cases hs
          rw [k2 hq, ok_bind, hso hcd, hq.stream]
          rfl
      · refine ⟨?_, ?_, fun _ h => absurd h hcd⟩
        · rcases k1 with k | k
          · rw [k]; simp
          · rw [k, ok_bind, hso' hcd]
            simp
        · intro s hs
          rcases k1 with k | k
          · rw [k] at hs; cases hs
          · rw [k, ok_bind, hso' hcd] at hs
            cases hs
  unfold compressedStream codecOf actual pick
  rw [hk]
  simp only
  rw [decmpfs_eq, fork_eq]
  by_cases h3 : m = 3
  · subst h3
    simp only [Nat.reduceEqDiff, true_or, or_self, ↓reduceIte, ok_bind]
    obtain ⟨p1, p2, p3⟩ := hpart 1 decmpfsName e.compressed hi.compressed
    exact ⟨p1, fun s hs => (p2 s hs).2, fun hq s hs => p3 hq (by omega) s hs⟩
  by_cases h4 : m = 4
  · subst h4
    simp only [Nat.reduceEqDiff, or_true, true_or, ↓reduceIte, ok_bind]
    obtain ⟨p1, p2, p3⟩ := hpart 1 forkName e.fork hi.fork
    exact ⟨p1, fun s hs => (p2 s hs).2, fun hq s hs => p3 hq (by omega) s hs⟩
  by_cases h5 : m = 5
  · subst h5
    simp only [Nat.reduceEqDiff, or_self, ↓reduceIte, ok_bind]
    obtain ⟨p1, p2, p3⟩ := hpart 5 decmpfsName e.compressed hi.compressed
    exact ⟨p1, fun s hs => (p2 s hs).2, fun hq s hs => p3 hq (by omega) s hs⟩
  by_cases h7 : m = 7
  · subst h7
    simp only [Nat.reduceEqDiff, true_or, or_self, ↓reduceIte, ok_bind]
    obtain ⟨p1, p2, p3⟩ := hpart 3 decmpfsName e.compressed hi.compressed
    exact ⟨p1, fun s hs => (p2 s hs).2, fun hq s hs => p3 hq (by omega) s hs⟩
  by_cases h8 : m = 8
  · subst h8
    simp only [Nat.reduceEqDiff, or_true, or_self, ↓reduceIte, ok_bind]
    obtain ⟨p1, p2, p3⟩ := hpart 3 forkName e.fork hi.fork
    exact ⟨p1, fun s hs => (p2 s hs).2, fun hq s hs => p3 hq (by omega) s hs⟩
  rw [if_neg h3, if_neg h4, if_neg h5, if_neg h7, if_neg h8, if_neg (by omega), if_neg h5, if_neg (by omega)]
  by_cases hl : m = 11 ∨ m = 12
  · rw [if_pos hl, if_neg (by omega), ok_bind]
    obtain ⟨p1, p2, p3⟩ := hpart 2 decmpfsName e.compressed hi.compressed
    exact ⟨p1, fun s hs => absurd (p2 s hs).1 (by decide), fun _ s hs => (by cases hs)⟩
  · rw [if_neg hl]
    exact ⟨by simp, fun s hs => (by cases hs), fun _ s hs => (by cases hs)⟩

theorem getDataStream_spec {f : StoredFile} {env : Env} {e : Entry} (hv : f.Valid) (hi : Inv f e) (he : Faithful f env) (hn : e.stream = none) :
    ∃ r e', getDataStream env e = (r, e') ∧ r ≠ ub ∧ Inv f e' ∧ (r = ok () → ∃ s, e'.stream = some s ∧ actual f = some s) ∧
      (Healthy f env → Known f → (actual f).isSome → r = ok ()) := by
  unfold getDataStream
  rw [if_neg (by rw [hn]; simp)]
  have hfirst : ∃ r e', (if e.size = 2 ^ 64 - 1 then getDataSize env e else (ok (), e)) = (r, e') ∧ r ≠ ub ∧ Inv f e' ∧
      (r = ok () → (∀ m n, f.kind = .compressed m n → e'.header = some (m, n)) ∧ (f.kind = .plain → e'.header = none) ∧ f.kind ≠ .damaged) ∧
      (Healthy f env → Known f → f.kind ≠ .damaged → r = ok ()) := by
    by_cases hs : e.size = 2 ^ 64 - 1
    · rw [if_pos hs]
      obtain ⟨r, e', hg, h1, h2, _, h3, h4⟩ := getDataSize_spec hv hi he
      refine ⟨r, e', hg, h1, h2, fun h => ⟨(h3 h).2.2.1, (h3 h).2.2.2, ?_⟩, fun hh hk => h4 hh hk hs⟩
      intro hd
      have := (h3 h).1
      unfold StoredFile.size? at this
      rw [hd] at this
      cases this
    · rw [if_neg hs]
      refine ⟨ok (), e, rfl, by simp, hi, fun _ => ?_, fun _ _ _ => rfl⟩
      cases hh : e.header with
      | none =>
        have := (hi.size hh hs).1
        rw [this]
        exact ⟨fun _ _ h => (by cases h), fun _ => rfl, by simp⟩
      | some h =>
        have := (hi.header h hh).2.1
        rw [this]
        exact ⟨fun _ _ h => (by cases h; rfl), fun h => (by cases h), by simp⟩
  obtain ⟨r, e', hg, h1, h2, h3, h4⟩ := hfirst
  rw [hg]
  have hdam : (actual f).isSome → f.kind ≠ .damaged := by
    intro h hd
    unfold actual at h
    rw [hd] at h
    cases h
  cases r with
  | ub => exact absurd rfl h1
  | err => exact ⟨err, e', rfl, by simp, h2, by simp, fun hh hk ha => h4 hh hk (hdam ha)⟩
  | ok u =>
    obtain ⟨k1, k2, k3⟩ := h3 rfl
    simp only
    cases hh : e'.header with
    | some h =>
      obtain ⟨m, n⟩ := h
      obtain ⟨s1, s2, s3⟩ := compressedStream_spec hv h2 he hh
      simp only
      cases hs : compressedStream env e' m with
      | ub => exact absurd hs s1
      | err =>
        refine ⟨err, e', rfl, by simp, h2, by simp, fun hq _ ha => ?_⟩
        cases hact : actual f with
        | none => rw [hact] at ha; cases ha
        | some s =>
          have := s3 hq s hact
          rw [hs] at this
          cases this
      | ok s =>
        refine ⟨ok (), _, rfl, by simp, ?_, fun _ => ⟨s, rfl, s2 s hs⟩, fun _ _ _ => rfl⟩
        refine ⟨h2.inodeSize, h2.sparse, h2.attributes, h2.compressed, h2.fork, h2.symlink, hh ▸ h2.header, hh ▸ h2.size, ?_, h2.target⟩
        intro t ht
        cases ht
        exact s2 s hs
    | none =>
      have hp : f.kind = .plain := by
        cases hkk : f.kind with
        | plain => rfl
        | damaged => exact absurd hkk k3
        | compressed m n =>
          have := k1 m n hkk
          rw [hh] at this
          cases this
      have hact : actual f = some (.extents f.size f.sparse) := by unfold actual; rw [hp]
      simp only
      cases hs : env.extents with
      | ub => exact absurd hs he.extents
      | err =>
        refine ⟨err, e', rfl, by simp, h2, by simp, fun hq _ _ => ?_⟩
        rw [hq.extents] at hs
        cases hs
      | ok u =>
        have hst : actual f = some (.extents e'.inodeSize (decide (e'.inodeFlags / 0x200 % 2 ≠ 0))) := by rw [hact, h2.inodeSize, h2.sparse]
        refine ⟨ok (), _, rfl, by simp, ?_, fun _ => ⟨_, rfl, hst⟩, fun _ _ _ => rfl⟩
        refine ⟨h2.inodeSize, h2.sparse, h2.attributes, h2.compressed, h2.fork, h2.symlink, hh ▸ h2.header, hh ▸ h2.size, ?_, h2.target⟩
        intro t ht
        cases ht
        exact hst

theorem openStream_spec {f : StoredFile} {env : Env} {e : Entry} (hv : f.Valid) (hi : Inv f e) (he : Faithful f env) :
    (openStream env e).1 ≠ ub ∧ Inv f (openStream env e).2 ∧ (∀ s, (openStream env e).1 = ok s → actual f = some s) ∧
      (Healthy f env → Known f → ∀ s, actual f = some s → (openStream env e).1 = ok s) := by
  unfold openStream
  cases hs : e.stream with
  | some s =>
    have := hi.stream s hs
    refine ⟨by simp, hi, ?_, ?_⟩
    · intro t ht
      cases ht
      exact this
    · intro _ _ t ht
      rw [this] at ht
      cases ht
      rfl
  | none =>
    obtain ⟨r, e', hg, h1, h2, h3, h4⟩ := getDataStream_spec hv hi he hs
    simp only
    rw [hg]
    cases r with
    | ub => exact absurd rfl h1
    | err =>
      refine ⟨by simp, h2, by simp, fun hh hk s ha => ?_⟩
      have := h4 hh hk (by rw [ha]; rfl)
      cases this
    | ok u =>
      obtain ⟨s, hs', ha⟩ := h3 rfl
      simp only
      rw [hs']
      refine ⟨by simp, h2, ?_, ?_⟩
      · intro t ht
        cases ht
        exact ha
      · intro _ _ t ht
        rw [ha] at ht
        cases ht
        rfl

theorem symlinkTarget_spec {f : StoredFile} {env : Env} {e : Entry} (hv : f.Valid) (hi : Inv f e) (he : Faithful f env) :
    (symlinkTarget env e).1 ≠ ub ∧ Inv f (symlinkTarget env e).2 ∧ (∀ t, (symlinkTarget env e).1 = ok t → target? f = some t) ∧
      (Healthy f env → ∀ t, target? f = some t → (symlinkTarget env e).1 = ok t) := by
  unfold symlinkTarget
  cases ht : e.target with
  | some t =>
    have := hi.target t ht
    refine ⟨by simp, hi, ?_, ?_⟩
    · intro t ht
      cases ht
      exact this
    · intro _ t ht
      rw [this] at ht
      cases ht
      rfl
  | none =>
    simp only
    unfold getTarget
    rw [if_neg (by rw [ht]; simp)]
    obtain ⟨r, e', hn, h1, h2, h3, h4, h5⟩ := needAttributes_spec hv hi he
    rw [hn]
    cases r with
    | ub => exact absurd rfl h1
    | err => exact ⟨by simp, h3, by simp, fun hh => by have := h2 hh; cases this⟩
    | ok u =>
      have ha := h5 rfl
      have hd := deref_named (by rw [ha]; rfl) h3.symlink
      have ht' : e'.target = none := h4.target.trans ht
      simp only
      cases hc : e'.symlink with
      | none =>
        have hnn : named f symlinkName = none := by
          have := hd.1
          rw [hc] at this
          cases hq : named f symlinkName with
          | none => rfl
          | some x => rw [hq] at this; cases this
        have hk : target? f = some none := by unfold target?; rw [symlink_eq, attribute?_eq, hnn]; rfl
        simp only
        rw [ht']
        refine ⟨by simp, h3, ?_, ?_⟩
        · intro t ht
          cases ht
          exact hk
        · intro _ t ht
          rw [hk] at ht
          cases ht
          rfl
      | some p =>
        obtain ⟨x, hx, hdx⟩ := hd.2 p (by rw [hc]; rfl)
        have hps : PtrOk f e' symlinkName (some p) := by rw [← hc]; exact h3.symlink
        have hk : target? f = if x.value.length = 0 ∨ x.value.length > 2 ^ 27 then none else some (some x.value) := by
          unfold target?; rw [symlink_eq, attribute?_eq, hx]; rfl
        obtain ⟨k1, k2⟩ := content_spec hv he (named_mem hx)
        simp only
        rw [hdx, ok_bind]
        have hl : linkTarget env (attr x) ≠ ub ∧ (∀ v, linkTarget env (attr x) = ok v → target? f = some (some v)) ∧
            (Healthy f env → ∀ t, target? f = some t → ∃ v, t = some v ∧ linkTarget env (attr x) = ok v) := by
          rw [hk]
          unfold linkTarget
          rw [show (attr x).size = x.value.length from rfl]
          by_cases hz : x.value.length = 0 ∨ x.value.length > 2 ^ 27
          · rw [require_false (fun h => h hz), if_pos hz]
            exact ⟨by simp, fun v h => (by cases h), fun _ t h => (by cases h)⟩
          · rw [require_true hz, ok_bind, if_neg hz]
            have hto : targetOf x.value.length (some x.value) = ok x.value := by
              unfold targetOf
              simp only
              rw [require_true (Nat.le_refl _), ok_bind, List.take_length]
              rfl
            refine ⟨?_, ?_, ?_⟩
            · rcases k1 with k | k
              · rw [k]; simp
              · rw [k, ok_bind, hto]; simp
            · intro v hv
              rcases k1 with k | k
              · rw [k] at hv; cases hv
              · rw [k, ok_bind, hto] at hv
                cases hv
                rfl
            · intro hq t ht
              cases ht
              exact ⟨_, rfl, by rw [k2 hq, ok_bind, hto]⟩
        obtain ⟨l1, l2, l3⟩ := hl
        cases hr : linkTarget env (attr x) with
        | ub => exact absurd hr l1
        | err =>
          refine ⟨by simp, h3, by simp, fun hq t ht => ?_⟩
          obtain ⟨v, _, hv⟩ := l3 hq t ht
          rw [hr] at hv
          cases hv
        | ok v =>
          have hv' := l2 v hr
          simp only
          refine ⟨by simp, ?_, ?_, ?_⟩
          · refine ⟨h3.inodeSize, h3.sparse, h3.attributes, h3.compressed, h3.fork, hps, h3.header, h3.size, h3.stream, ?_⟩
            intro t ht
            cases ht
            exact hv'
          · intro t ht
            cases ht
            exact hv'
          · intro _ t ht
            rw [hv'] at ht
            cases ht
            rfl

theorem findNamed_spec {f : StoredFile} {env : Env} (he : Faithful f env) (name : Bytes) : ∀ xs : List XAttr, (∀ x ∈ xs, x ∈ f.attributes) →
    findNamed env name (xs.map attr) ≠ ub ∧ (∀ r, findNamed env name (xs.map attr) = ok r → r = (xs.find? fun x => x.name = name).map attr) ∧
      (Healthy f env → findNamed env name (xs.map attr) = ok ((xs.find? fun x => x.name = name).map attr))
  | [], _ => ⟨by simp [findNamed], fun r h => (by cases h; rfl), fun _ => rfl⟩
  | x :: xs, h => by
    have hx := h x (by simp)
    obtain ⟨i1, i2, i3⟩ := findNamed_spec he name xs fun y hy => h y (List.mem_cons_of_mem x hy)
    simp only [List.map_cons, findNamed]
    rw [show (attr x).name = x.name ++ [0] from rfl, List.find?_cons]
    by_cases hn : x.name = name
    · rw [decide_eq_true hn]
      refine ⟨?_, ?_, ?_⟩
      · rcases he.compare x hx name with c | c
        · rw [c]; simp
        · rw [c, ok_bind, decide_eq_true hn]; simp
      · intro r hr
        rcases he.compare x hx name with c | c
        · rw [c] at hr; cases hr
        · rw [c, ok_bind, decide_eq_true hn] at hr
          cases hr
          rfl
      · intro hh
        rw [hh.compare x hx, ok_bind, decide_eq_true hn]
        rfl
    · rw [decide_eq_false hn]
      refine ⟨?_, ?_, ?_⟩
      · rcases he.compare x hx name with c | c
        · rw [c]; simp
        · rw [c, ok_bind, decide_eq_false hn]; exact i1
      · intro r hr
        rcases he.compare x hx name with c | c
        · rw [c] at hr; cases hr
        · rw [c, ok_bind, decide_eq_false hn] at hr
          exact i2 r hr
      · intro hh
        rw [hh.compare x hx, ok_bind, decide_eq_false hn]
        exact i3 hh

theorem attributeByName_spec {f : StoredFile} {env : Env} {e : Entry} (hv : f.Valid) (hi : Inv f e) (he : Faithful f env) (name : Bytes) :
    (attributeByName env name e).1 ≠ ub ∧ Inv f (attributeByName env name e).2 ∧
      (∀ r, (attributeByName env name e).1 = ok r → r = (named f name).map attr) ∧
      (Healthy f env → (attributeByName env name e).1 = ok ((named f name).map attr)) := by
  unfold attributeByName
  obtain ⟨r, e', hn, h1, h2, h3, h4, h5⟩ := needAttributes_spec hv hi he
  rw [hn]
  cases r with
  | ub => exact absurd rfl h1
  | err => exact ⟨by simp, h3, by simp, fun hh => by have := h2 hh; cases this⟩
  | ok u =>
    simp only
    rw [h5 rfl]
    obtain ⟨i1, i2, i3⟩ := findNamed_spec he name f.attributes fun x hx => hx
    exact ⟨i1, h3, i2, i3⟩

theorem numberOfAttributes_spec {f : StoredFile} {env : Env} {e : Entry} (hv : f.Valid) (hi : Inv f e) (he : Faithful f env) :
    (numberOfAttributes env e).1 ≠ ub ∧ Inv f (numberOfAttributes env e).2 ∧
      (∀ n, (numberOfAttributes env e).1 = ok n → n = f.attributes.length) ∧
      (Healthy f env → (numberOfAttributes env e).1 = ok f.attributes.length) := by
  unfold numberOfAttributes
  obtain ⟨r, e', hn, h1, h2, h3, h4, h5⟩ := needAttributes_spec hv hi he
  rw [hn]
  cases r with
  | ub => exact absurd rfl h1
  | err => exact ⟨by simp, h3, by simp, fun hh => by have := h2 hh; cases this⟩
  | ok u =>
    simp only
    rw [h5 rfl]
    refine ⟨by simp, h3, ?_, fun _ => by simp⟩
    intro n h
    cases h
    simp

end FileEntry
end Verif
