import Verif.Props.C68
import Verif.Props.C67Examples
/-!
# C68 The MD5 column of a bodyfile: examples

"Docs/readme" of the example volume has 9000 bytes, which are read in three pieces. Two volumes have a file that is compressed with LZFSE and with method 5.
-/
namespace Verif.Props
open Verif Res Spec BTree FsTree FileRead
open Verif.Digest (Md5 column ofFile)
open Verif.Spec.Digest (Incremental)
open Verif.VolumeExample (readmeFile)
open Verif.FileExample (readme_in readme_content plain_blocks hasRoot codec codec_ok compare compares)
open Verif.FsTree.TreeExample (key)
open HierarchyExample (leafStorage leafTree)

namespace DigestExample

/-- instead of MD5: the number of bytes and the first 15 of them -/
def digest (d : Bytes) : Bytes := UInt8.ofNat d.length :: (d ++ List.replicate 15 0).take 15

def md5 : Md5 := { Context := Bytes, start := [], update := fun x b => x ++ b, finish := digest }

theorem fold_append : ∀ (ps : List Bytes) (x : Bytes), ps.foldl (fun x b => x ++ b) x = x ++ ps.flatten
  | [], x => by simp
  | p :: ps, x => by rw [List.foldl_cons, fold_append ps, List.flatten_cons, List.append_assoc]

theorem incremental : Incremental md5.Context md5.start md5.update md5.finish digest := by
  refine ⟨fun ps => ?_, fun d => ?_⟩
  · show digest (ps.foldl (fun x b => x ++ b) []) = _
    rw [fold_append, List.nil_append]
  · unfold digest
    rw [List.length_cons, List.length_take, List.length_append, List.length_replicate]
    omega

example : ∃ i, ReadsAs i readmeFile 7 ∧ ∀ e, FileEntry.Reached readmeFile e → ∃ text, column true 0x81a4 (ofFile codec md5 ExtentsExample.volume compare (List.replicate 65536 0) i e) = ok text ∧
    Spec.Digest.Shows text (digest VolumeExample.readmeContent) ∧ text.length = 32 := by
  obtain ⟨r, _, h⟩ := (readme_in plain_blocks).inode
  obtain ⟨i, _, hi⟩ := readInode_of h (by decide)
  exact ⟨i, hi, fun e he => c68_column_partial ExtentsExample.serves VolumeExample.holds hasRoot (readme_in plain_blocks) codec_ok (readme_content plain_blocks) (compares _) hi he List.length_replicate incremental
    (by decide)⟩

/-- in a line -/
example (i : Records.Inode) (hi : ReadsAs i readmeFile 7) (e : FileEntry.Entry) (he : FileEntry.Reached readmeFile e) :=
  c68_line_partial ExtentsExample.serves VolumeExample.holds hasRoot (readme_in plain_blocks) codec_ok (readme_content plain_blocks) (compares _) hi he (List.length_replicate (n := 65536) (a := 0)) incremental
    PathString.lawful_utf8Codec (some [0x2f]) (some [0x61, 0x7c]) (by intro cs h; cases h; exact ⟨by decide, by decide, by decide +kernel⟩)
    (by intro cs h; cases h; exact ⟨by decide, by decide, by decide +kernel⟩)
    { identifier := 7, mode := 0x81a4, owner := 501, group := 20, size := 9000, access := 0, modification := 1, change := 2, creation := 3, target := none } rfl (by decide) (by decide) (by decide) (by decide) (by decide)

/-- an entry of it -/
example : FileEntry.Reached readmeFile { inodeSize := readmeFile.size, inodeFlags := 0x200 } := .new 0x200 (by decide +kernel)

/-- a text that is shown is of as many bytes as the file has -/
example (i : Records.Inode) (hi : ReadsAs i readmeFile 7) (e : FileEntry.Entry) (he : FileEntry.Reached readmeFile e) :
    ∃ text n, column true 0x81a4 (ofFile codec md5 ExtentsExample.volume compare (List.replicate 65536 0) i e) = ok text ∧
      (FileEntry.getSize (FileRead.env ExtentsExample.volume compare i) e).1 = ok n ∧ ∃ ps : List Bytes, ps.flatten.length = n ∧ Spec.Digest.Shows text (digest ps.flatten) := by
  obtain ⟨text, h1, _⟩ := c68_column_partial ExtentsExample.serves VolumeExample.holds hasRoot (readme_in plain_blocks) codec_ok (readme_content plain_blocks) (compares _) hi he
    (List.length_replicate (n := 65536) (a := 0)) incremental (mode := 0x81a4) (by decide)
  obtain ⟨n, _, _, ps, w1, _, _, _, w2, w3⟩ := c68_whole incremental (by decide) h1
  exact ⟨text, n, h1, w1, ps, w2, w3⟩

/-! Compressed files. -/

def header (method : Nat) : Bytes := [0x66, 0x70, 0x6d, 0x63] ++ toLE 4 method ++ toLE 8 300

def file (method : Nat) : StoredFile := { identifier := 7, attributes := [{ name := decmpfs, value := header method }], size := 0, sparse := false }

def fixed (mode : Nat) : InodeFixed :=
  { parent := 2, dataStream := 7, created := 0, modified := 0, changed := 0, accessed := 0, flags := 0, links := 1, protectionClass := 0, generation := 0, bsdFlags := 0x20, owner := 0, group := 0, mode, padding := List.replicate 10 0 }

def records (method : Nat) : List Record := [(key 3 2 [], inodeValue (fixed 0x41ed).bytes none), (key 3 7 [], inodeValue (fixed 0x81a4).bytes none), XAttr.record 7 { name := decmpfs, value := header method }]

def volume (method : Nat) : Files := { disk := fun _ _ => err, xts := none, tree := volumeOf (leafStorage (records method)), xid := 9, folding := false }

theorem serves (method : Nat) : Serves (volume method) (leafStorage (records method)) 9 (fun _ => none) none :=
  ⟨rfl, rfl, rfl, fun _ _ h => (by cases h), fun _ _ h => (by cases h), fun _ h => (by cases h)⟩

theorem holds {method : Nat} (h : method ∈ [5, 11]) : FsHolds (leafStorage (records method)) 9 (records method) := by
  simp only [List.mem_cons, List.not_mem_nil, or_false] at h
  rcases h with rfl | rfl
  · refine ⟨⟨_, leafTree _, VolumeExample.fsLeaf (records 5), ⟨(by decide), rfl, ⟨by decide +kernel, by decide +kernel, by decide +kernel, by decide +kernel, by decide +kernel, by decide +kernel, by decide +kernel, by decide +kernel⟩,
      by decide +kernel, by decide +kernel, by decide +kernel, by decide +kernel, by decide +kernel⟩, .inl (by decide +kernel)⟩, by decide +kernel, ?_⟩
    unfold fsLe
    decide +kernel
  · refine ⟨⟨_, leafTree _, VolumeExample.fsLeaf (records 11), ⟨(by decide), rfl, ⟨by decide +kernel, by decide +kernel, by decide +kernel, by decide +kernel, by decide +kernel, by decide +kernel, by decide +kernel, by decide +kernel⟩,
      by decide +kernel, by decide +kernel, by decide +kernel, by decide +kernel, by decide +kernel⟩, .inl (by decide +kernel)⟩, by decide +kernel, ?_⟩
    unfold fsLe
    decide +kernel

theorem facts : ∀ method ∈ [5, 11], (∃ r ∈ records method, IsOf 2 3 r) ∧ (records method).Pairwise (fun a b => ¬ (IsOf 7 3 a ∧ IsOf 7 3 b)) ∧ recordsOf (records method) 7 4 = (file method).attributes.map (·.record 7) ∧
    recordsOf (records method) 7 8 = [] ∧ (file method).kind = .compressed method 300 ∧ (file method).attribute? decmpfs = some (header method) := by decide +kernel

theorem valid {method : Nat} (h : method ∈ [5, 11]) : (file method).Valid := by
  refine ⟨?_, by unfold file; simp, by show 0 < _; decide⟩
  intro x hx
  simp only [file, List.mem_cons, List.not_mem_nil, or_false] at hx
  subst hx
  simp only [List.mem_cons, List.not_mem_nil, or_false] at h
  rcases h with rfl | rfl <;> exact ⟨by decide +kernel, by decide +kernel⟩

theorem fileIn {method : Nat} (h : method ∈ [5, 11]) : FileIn (records method) (fun _ => none) none (file method) 7 := by
  obtain ⟨_, f2, f3, f4, _, _⟩ := facts method h
  refine ⟨valid h, by show 7 < _; decide, ⟨(key 3 7 [], inodeValue (fixed 0x81a4).bytes none), by simp [records], by show key 3 7 [] = toLE 8 (3 * 2 ^ 60 + 7); decide +kernel, (fixed 0x81a4).bytes, none, rfl, by decide +kernel, by simp, by decide +kernel, by decide +kernel,
    by show _ = false; decide +kernel, by show _ = 0; decide +kernel⟩, f2, f3, ?_, [], by decide, by decide, [], fun _ _ => [], f4, by simp, trivial, by decide, by simp, by simp, by simp⟩
  intro x hx s hs
  simp only [file, List.mem_cons, List.not_mem_nil, or_false] at hx
  subst hx
  cases hs

theorem reached (method : Nat) : FileEntry.Reached (file method) { inodeSize := (file method).size, inodeFlags := 0 } := .new 0 (by show _ = false; decide)

theorem healthy {method : Nat} (h : method ∈ [5, 11]) : ∃ i, ReadsAs i (file method) 7 ∧ FileEntry.Healthy (file method) (FileRead.env (volume method) compare i) := by
  obtain ⟨r, _, hr⟩ := (fileIn h).inode
  obtain ⟨i, _, hi⟩ := readInode_of hr (by show 7 < _; decide)
  exact ⟨i, hi, healthy_env (serves method) (holds h) (facts method h).1 (fileIn h) (compares _) hi⟩

example : ∃ i, column true 0x81a4 (ofFile codec md5 (volume 11) compare (List.replicate 65536 0) i { inodeSize := (file 11).size, inodeFlags := 0 }) = err := by
  have h : 11 ∈ [5, 11] := by decide
  obtain ⟨i, _, hh⟩ := healthy h
  exact ⟨i, c68_lzfse (valid h) (reached 11) hh (.inl rfl) (by decide) (facts 11 h).2.2.2.2.1 codec md5 _ (by decide)⟩

example : ∃ i text, column true 0x81a4 (ofFile codec md5 (volume 5) compare (List.replicate 65536 0) i { inodeSize := (file 5).size, inodeFlags := 0 }) = ok text ∧
    Spec.Digest.Shows text (digest (List.replicate 300 0)) := by
  have h : 5 ∈ [5, 11] := by decide
  obtain ⟨i, _, hh⟩ := healthy h
  exact ⟨i, c68_method5 (valid h) (reached 5) hh (by decide) (facts 5 h).2.2.2.2.1 (facts 5 h).2.2.2.2.2 (by decide) codec _ incremental (by decide)⟩

end DigestExample
end Verif.Props
