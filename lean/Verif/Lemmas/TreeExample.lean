import Verif.Lemmas.FsTree
import Verif.Spec.Records
/-! A volume with a file system tree of two levels, used as an example for the theorems about lookup and enumeration. -/
namespace Verif
open Res Spec
namespace FsTree
open BTree
namespace TreeExample

/-- an object map node -/
def omBlock (type flags : Nat) (es : List Record) (footer : Bytes) : Bytes :=
  let toc := es.length * 4
  let vs := if flags / 2 % 2 = 0 then 8 else 16
  List.replicate 24 0 ++ toLE 4 type ++ toLE 4 0xb ++ toLE 2 flags ++ toLE 2 0 ++ toLE 4 es.length ++ toLE 2 0 ++ toLE 2 toc ++ toLE 2 0 ++ toLE 2 0 ++ List.replicate 8 0 ++
  (List.range es.length).flatMap (fun i => toLE 2 (i * 16) ++ toLE 2 ((i + 1) * vs)) ++ (es.map (·.1)).flatten ++ List.replicate 40 0 ++ (es.map (·.2)).reverse.flatten ++ footer

def tocOf : List Record → Nat → Nat → Bytes
  | [], _, _ => []
  | e :: es, ko, vo => toLE 2 ko ++ toLE 2 e.1.length ++ toLE 2 (vo + e.2.length) ++ toLE 2 e.2.length ++ tocOf es (ko + e.1.length) (vo + e.2.length)

/-- a file system tree node -/
def fsBlock (type flags : Nat) (es : List Record) (footer : Bytes) : Bytes :=
  List.replicate 24 0 ++ toLE 4 type ++ toLE 4 0xe ++ toLE 2 flags ++ toLE 2 0 ++ toLE 4 es.length ++ toLE 2 0 ++ toLE 2 (es.length * 8) ++ toLE 2 0 ++ toLE 2 0 ++ List.replicate 8 0 ++
  tocOf es 0 0 ++ (es.map (·.1)).flatten ++ List.replicate 40 0 ++ (es.map (·.2)).reverse.flatten ++ footer

def key (type identifier : Nat) (rest : Bytes) : Bytes := toLE 8 (type * 2 ^ 60 + identifier) ++ rest

/-- fixed fields of an inode -/
def inode (parent mode : Nat) : Bytes := toLE 8 parent ++ (List.replicate 72 7 ++ (toLE 2 mode ++ List.replicate 10 0))

def leafA : List Record := [(key 3 2 [], inode 1 0x41ed), (drecKey 2 [97, 0], drecValue 3 11 8 none)]
def leafB : List Record := [(drecKey 2 [98, 0], drecValue 9 12 8 none), (key 3 3 [], inode 2 0x81a4), (xattrKey 3 [120, 0], xattrValue 2 [1, 2, 3])]
def leafC : List Record := [(xattrKey 3 [121, 0], xattrValue 2 [4]), (extentKey 3 0, extentValue 4096 0 50 0)]
def leafD : List Record := [(extentKey 3 4096, extentValue 8192 0 70 1)]

def rootEntries : List Record := [(key 3 2 [], toLE 8 1000), (drecKey 2 [98, 0], toLE 8 1001), (xattrKey 3 [121, 0], toLE 8 1002), (extentKey 3 4096, toLE 8 1003)]

def records : List Record := leafA ++ leafB ++ leafC ++ leafD

def mapping (oid block : Nat) : Record := (toLE 8 oid ++ toLE 8 5, toLE 4 0 ++ toLE 4 4096 ++ toLE 8 block)
def mappings : List Record := [mapping 1000 21, mapping 1001 22, mapping 1002 23, mapping 1003 24]

def omRootBlock : Bytes := omBlock 0x40000002 7 mappings (toLE 4 0 ++ toLE 4 4096 ++ toLE 4 16 ++ toLE 4 16 ++ List.replicate 24 0)
def fsRootBlock : Bytes := fsBlock 2 1 rootEntries (toLE 4 0 ++ toLE 4 4096 ++ toLE 4 0 ++ toLE 4 0 ++ List.replicate 24 0)

def storage : Storage :=
  { omImage := fun b => if b = 5 then some omRootBlock else none, omRoot := 5, fsRoot := 20,
    fsImage := fun b => if b = 20 then some fsRootBlock else if b = 21 then some (fsBlock 3 2 leafA []) else if b = 22 then some (fsBlock 3 2 leafB []) else
      if b = 23 then some (fsBlock 3 2 leafC []) else if b = 24 then some (fsBlock 3 2 leafD []) else none }

theorem om : OmTree storage.omImage storage.omRoot mappings := by
  refine ⟨⟨omRootBlock, ⟨by decide, rfl, ⟨by decide +kernel, by decide +kernel, by decide +kernel, by decide +kernel, by decide +kernel, by decide +kernel, by decide +kernel, by decide +kernel⟩,
    by decide +kernel, by decide +kernel, by decide +kernel, by decide +kernel, by decide +kernel⟩, .inl (by decide +kernel)⟩, ?_⟩
  unfold Ascending omLt
  decide +kernel

theorem child {oid block : Nat} {es : List Record} (h : mapping oid block ∈ mappings) (h0 : field (toLE 8 oid) 0 8 = oid ∧ oid ≠ 0 ∧ omOid (mapping oid block).1 = oid)
    (hn : ∀ r' ∈ mappings, omOid r'.1 = oid → omXid r'.1 ≤ 9 → omXid r'.1 ≤ omXid (mapping oid block).1) (hx : omXid (mapping oid block).1 ≤ 9) (hb : field (mapping oid block).2 8 8 = block)
    (hf : FsNode storage.fsImage block (fsBlock 3 2 es [])) (hnode : nodeOf (fsBlock 3 2 es []) = { leaf := true, entries := es }) :
    FsChild storage mappings 9 (toLE 8 oid) { leaf := true, entries := es } := by
  refine ⟨length_toLE 8 oid, by omega, mapping oid block, ?_, fsBlock 3 2 es [], by rw [hb]; exact hf, hnode.symm⟩
  rw [h0.1]
  exact ⟨h, h0.2.2, hx, hn⟩

theorem holds : FsHolds storage 9 records := by
  refine ⟨⟨mappings, om, fsRootBlock, ?_, .inr ⟨by decide +kernel, [⟨key 3 2 [], toLE 8 1000, ⟨true, leafA⟩, leafA⟩, ⟨drecKey 2 [98, 0], toLE 8 1001, ⟨true, leafB⟩, leafB⟩,
    ⟨xattrKey 3 [121, 0], toLE 8 1002, ⟨true, leafC⟩, leafC⟩, ⟨extentKey 3 4096, toLE 8 1003, ⟨true, leafD⟩, leafD⟩], by simp, by decide +kernel, by decide +kernel, ?_⟩⟩, by decide +kernel, ?_⟩
  · exact ⟨by decide, rfl, ⟨by decide +kernel, by decide +kernel, by decide +kernel, by decide +kernel, by decide +kernel, by decide +kernel, by decide +kernel, by decide +kernel⟩,
      by decide +kernel, by decide +kernel, by decide +kernel, by decide +kernel, by decide +kernel⟩
  · intro c hc
    simp only [List.mem_cons, List.not_mem_nil, or_false] at hc
    rcases hc with rfl | rfl | rfl | rfl
    · exact ⟨child (block := 21) (by decide +kernel) (by decide +kernel) (by decide +kernel) (by decide +kernel) (by decide +kernel)
        ⟨by decide, rfl, ⟨by decide +kernel, by decide +kernel, by decide +kernel, by decide +kernel, by decide +kernel, by decide +kernel, by decide +kernel, by decide +kernel⟩,
          by decide +kernel, by decide +kernel, by decide +kernel, by decide +kernel⟩ (by decide +kernel), .inl ⟨rfl, rfl⟩, rfl⟩
    · exact ⟨child (block := 22) (by decide +kernel) (by decide +kernel) (by decide +kernel) (by decide +kernel) (by decide +kernel)
        ⟨by decide, rfl, ⟨by decide +kernel, by decide +kernel, by decide +kernel, by decide +kernel, by decide +kernel, by decide +kernel, by decide +kernel, by decide +kernel⟩,
          by decide +kernel, by decide +kernel, by decide +kernel, by decide +kernel⟩ (by decide +kernel), .inl ⟨rfl, rfl⟩, rfl⟩
    · exact ⟨child (block := 23) (by decide +kernel) (by decide +kernel) (by decide +kernel) (by decide +kernel) (by decide +kernel)
        ⟨by decide, rfl, ⟨by decide +kernel, by decide +kernel, by decide +kernel, by decide +kernel, by decide +kernel, by decide +kernel, by decide +kernel, by decide +kernel⟩,
          by decide +kernel, by decide +kernel, by decide +kernel, by decide +kernel⟩ (by decide +kernel), .inl ⟨rfl, rfl⟩, rfl⟩
    · exact ⟨child (block := 24) (by decide +kernel) (by decide +kernel) (by decide +kernel) (by decide +kernel) (by decide +kernel)
        ⟨by decide, rfl, ⟨by decide +kernel, by decide +kernel, by decide +kernel, by decide +kernel, by decide +kernel, by decide +kernel, by decide +kernel, by decide +kernel⟩,
          by decide +kernel, by decide +kernel, by decide +kernel, by decide +kernel⟩ (by decide +kernel), .inl ⟨rfl, rfl⟩, rfl⟩
  · unfold fsLe
    decide +kernel

end TreeExample
end FsTree
end Verif
