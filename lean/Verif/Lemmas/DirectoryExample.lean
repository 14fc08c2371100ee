import Verif.Lemmas.TreeExample
import Verif.Lemmas.Directory
/-! A case-insensitive volume with name hashes, used as an example for lookup of names and paths. -/
namespace Verif
open Res Spec
namespace NameLookup
open BTree FsTree
namespace DirectoryExample
open TreeExample (omBlock fsBlock key inode mapping)

def format : NameFormat := { hashed := true, caseInsensitive := true }

def entry (name : List Nat) (identifier : Nat) : DirEntry := { name := name, identifier := identifier, added := 1, flags := 8, fields := none }

/-- "Docs" -/
def docs : List Nat := [0x44, 0x6f, 0x63, 0x73]
/-- "docs" -/
def docsLower : List Nat := [0x64, 0x6f, 0x63, 0x73]
def readme : List Nat := [0x72, 0x65, 0x61, 0x64, 0x6d, 0x65]
def readmeUpper : List Nat := [0x52, 0x45, 0x41, 0x44, 0x4d, 0x45]
/-- a Hangul syllable -/
def korean : List Nat := [0xac01]
/-- "sle_i", its name hash is 0 -/
def zero : List Nat := [0x73, 0x6c, 0x65, 0x5f, 0x69]

def dir2 : List DirEntry := [entry docs 5, entry readme 9]
def dir5 : List DirEntry := [entry readme 7, entry korean 8]
def dir10 : List DirEntry := [entry zero 6, entry readme 7]

def rec (parent : Nat) (name : List Nat) (identifier : Nat) : Record := (entry name identifier).record format parent

def leafA : List Record := [(key 3 2 [], inode 1 0x41ed), rec 2 docs 5]
def leafB : List Record := [rec 2 readme 9, (key 3 5 [], inode 2 0x41ed)]
def leafC : List Record := [rec 5 readme 7, rec 5 korean 8, (key 3 6 [], inode 10 0x81a4), (key 3 7 [], inode 5 0x81a4), (key 3 8 [], inode 5 0x81a4),
  (key 3 9 [], inode 2 0x81a4), (key 3 10 [], inode 2 0x41ed), rec 10 zero 6]
def leafD : List Record := [rec 10 readme 7]

def rootEntries : List Record :=
  [(key 3 2 [], toLE 8 1000), ((rec 2 readme 9).1, toLE 8 1001), ((rec 5 readme 7).1, toLE 8 1002), ((rec 10 readme 7).1, toLE 8 1003)]

def records : List Record := leafA ++ leafB ++ leafC ++ leafD

def mappings : List Record := [mapping 1000 21, mapping 1001 22, mapping 1002 23, mapping 1003 24]

def omRootBlock : Bytes := omBlock 0x40000002 7 mappings (toLE 4 0 ++ toLE 4 4096 ++ toLE 4 16 ++ toLE 4 16 ++ List.replicate 24 0)
def fsRootBlock : Bytes := fsBlock 2 1 rootEntries (toLE 4 0 ++ toLE 4 4096 ++ toLE 4 0 ++ toLE 4 0 ++ List.replicate 24 0)

def storage : Storage :=
  { omImage := fun b => if b = 5 then some omRootBlock else none, omRoot := 5, fsRoot := 20,
    fsImage := fun b => if b = 20 then some fsRootBlock else if b = 21 then some (fsBlock 3 2 leafA []) else if b = 22 then some (fsBlock 3 2 leafB []) else
      if b = 23 then some (fsBlock 3 2 leafC []) else if b = 24 then some (fsBlock 3 2 leafD []) else none }

theorem om : OmTree storage.omImage storage.omRoot mappings := by
  refine ⟨⟨omRootBlock, ⟨by decide, rfl, ⟨by decide +kernel, by decide +kernel, by decide +kernel, by decide +kernel, by decide +kernel, by decide +kernel, by decide +kernel, by decide +kernel⟩,
    by decide +kernel, by decide +kernel, by decide +kernel, by decide +kernel, by decide +kernel⟩, .inl (by decide +kernel)⟩, ?_⟩
  unfold Ascending omLt
  decide +kernel

theorem child {oid block : Nat} {es : List Record} (h : mapping oid block ∈ mappings) (h0 : field (toLE 8 oid) 0 8 = oid ∧ oid ≠ 0 ∧ omOid (mapping oid block).1 = oid)
    (hn : ∀ r' ∈ mappings, omOid r'.1 = oid → omXid r'.1 ≤ 9 → omXid r'.1 ≤ omXid (mapping oid block).1) (hx : omXid (mapping oid block).1 ≤ 9) (hb : field (mapping oid block).2 8 8 = block)
    (hf : FsNode storage.fsImage block (fsBlock 3 2 es [])) (hnode : nodeOf (fsBlock 3 2 es []) = { leaf := true, entries := es }) :
    FsChild storage mappings 9 (toLE 8 oid) { leaf := true, entries := es } := by
  refine ⟨length_toLE 8 oid, by omega, mapping oid block, ?_, fsBlock 3 2 es [], by rw [hb]; exact hf, hnode.symm⟩
  rw [h0.1]
  exact ⟨h, h0.2.2, hx, hn⟩

theorem holds : FsHolds storage 9 records := by
  refine ⟨⟨mappings, om, fsRootBlock, ?_, .inr ⟨by decide +kernel, [⟨key 3 2 [], toLE 8 1000, ⟨true, leafA⟩, leafA⟩, ⟨(rec 2 readme 9).1, toLE 8 1001, ⟨true, leafB⟩, leafB⟩,
    ⟨(rec 5 readme 7).1, toLE 8 1002, ⟨true, leafC⟩, leafC⟩, ⟨(rec 10 readme 7).1, toLE 8 1003, ⟨true, leafD⟩, leafD⟩], by simp, by decide +kernel, by decide +kernel, ?_⟩⟩,
    by decide +kernel, ?_⟩
  · exact ⟨by decide, rfl, ⟨by decide +kernel, by decide +kernel, by decide +kernel, by decide +kernel, by decide +kernel, by decide +kernel, by decide +kernel, by decide +kernel⟩,
      by decide +kernel, by decide +kernel, by decide +kernel, by decide +kernel, by decide +kernel⟩
  · intro c hc
    simp only [List.mem_cons, List.not_mem_nil, or_false] at hc
    rcases hc with rfl | rfl | rfl | rfl
    · exact ⟨child (block := 21) (by decide +kernel) (by decide +kernel) (by decide +kernel) (by decide +kernel) (by decide +kernel)
        ⟨by decide, rfl, ⟨by decide +kernel, by decide +kernel, by decide +kernel, by decide +kernel, by decide +kernel, by decide +kernel, by decide +kernel, by decide +kernel⟩,
          by decide +kernel, by decide +kernel, by decide +kernel, by decide +kernel⟩ (by decide +kernel), .inl ⟨rfl, rfl⟩, rfl⟩
    · exact ⟨child (block := 22) (by decide +kernel) (by decide +kernel) (by decide +kernel) (by decide +kernel) (by decide +kernel)
        ⟨by decide, rfl, ⟨by decide +kernel, by decide +kernel, by decide +kernel, by decide +kernel, by decide +kernel, by decide +kernel, by decide +kernel, by decide +kernel⟩,
          by decide +kernel, by decide +kernel, by decide +kernel, by decide +kernel⟩ (by decide +kernel), .inl ⟨rfl, rfl⟩, rfl⟩
    · exact ⟨child (block := 23) (by decide +kernel) (by decide +kernel) (by decide +kernel) (by decide +kernel) (by decide +kernel)
        ⟨by decide, rfl, ⟨by decide +kernel, by decide +kernel, by decide +kernel, by decide +kernel, by decide +kernel, by decide +kernel, by decide +kernel, by decide +kernel⟩,
          by decide +kernel, by decide +kernel, by decide +kernel, by decide +kernel⟩ (by decide +kernel), .inl ⟨rfl, rfl⟩, rfl⟩
    · exact ⟨child (block := 24) (by decide +kernel) (by decide +kernel) (by decide +kernel) (by decide +kernel) (by decide +kernel)
        ⟨by decide, rfl, ⟨by decide +kernel, by decide +kernel, by decide +kernel, by decide +kernel, by decide +kernel, by decide +kernel, by decide +kernel, by decide +kernel⟩,
          by decide +kernel, by decide +kernel, by decide +kernel, by decide +kernel⟩ (by decide +kernel), .inl ⟨rfl, rfl⟩, rfl⟩
  · unfold fsLe
    decide +kernel

theorem root : fsRootNode (volumeOf storage) = ok (some (parsed fsRootBlock)) := fsRootNode_ok ⟨by decide, rfl, ⟨by decide +kernel, by decide +kernel,
  by decide +kernel, by decide +kernel, by decide +kernel, by decide +kernel, by decide +kernel, by decide +kernel⟩,
      by decide +kernel, by decide +kernel, by decide +kernel, by decide +kernel, by decide +kernel⟩

theorem valid_entry (name : List Nat) (identifier : Nat) (h : ∀ c ∈ name, Scalar c ∧ c ≠ 0) (hs : (Utf8.encode name).length < 1023) (hi : identifier < 2 ^ 64)
    (hv : (drecValue identifier 1 8 none).length < 2 ^ 63) : (entry name identifier).Valid := ⟨h, hs, hi, by simp [entry], by simp [entry], hv⟩

theorem directory2 : Directory records format 2 dir2 := by
  refine ⟨by decide +kernel, by decide +kernel, ?_, ?_⟩
  · intro e he
    simp only [dir2, List.mem_cons, List.not_mem_nil, or_false] at he
    rcases he with rfl | rfl
    · exact valid_entry docs 5 (by decide) (by decide) (by decide) (by decide)
    · exact valid_entry readme 9 (by decide) (by decide) (by decide) (by decide)
  · unfold DirEntry.Before
    decide +kernel

theorem directory5 : Directory records format 5 dir5 := by
  refine ⟨by decide +kernel, by decide +kernel, ?_, ?_⟩
  · intro e he
    simp only [dir5, List.mem_cons, List.not_mem_nil, or_false] at he
    rcases he with rfl | rfl
    · exact valid_entry readme 7 (by decide) (by decide) (by decide) (by decide)
    · exact valid_entry korean 8 (by decide) (by decide) (by decide) (by decide)
  · unfold DirEntry.Before
    decide +kernel

theorem directory10 : Directory records format 10 dir10 := by
  refine ⟨by decide +kernel, by decide +kernel, ?_, ?_⟩
  · intro e he
    simp only [dir10, List.mem_cons, List.not_mem_nil, or_false] at he
    rcases he with rfl | rfl
    · exact valid_entry zero 6 (by decide) (by decide) (by decide) (by decide)
    · exact valid_entry readme 7 (by decide) (by decide) (by decide) (by decide)
  · unfold DirEntry.Before
    decide +kernel

end DirectoryExample
end NameLookup
end Verif
