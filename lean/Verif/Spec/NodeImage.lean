import Verif.Spec.Tree
/-!
# Writing a B-tree node

A block of 4096 bytes that holds given entries, laid out as in Verif/Spec/BTreeNode.lean: the keys in order behind the table of contents, the values in order up to
the end of the block or the footer.
-/
namespace Verif.Spec
open Verif

def keysOf (es : List Record) : Bytes := (es.map (·.1)).flatten
def valuesOf (es : List Record) : Bytes := (es.map (·.2)).flatten

/-- an entry of the table of contents: where the key starts and, counted from the end, where the value starts -/
def tocEntry (fixed : Bool) (keyOffset valueOffset : Nat) (e : Record) : Bytes :=
  if fixed then toLE 2 keyOffset ++ toLE 2 valueOffset
  else toLE 2 keyOffset ++ (toLE 2 e.1.length ++ (toLE 2 valueOffset ++ toLE 2 e.2.length))

def tocOf (fixed : Bool) : Nat → List Record → Bytes
  | _, [] => []
  | keyOffset, e :: es => tocEntry fixed keyOffset (valuesOf (e :: es)).length e ++ tocOf fixed (keyOffset + e.1.length) es

/-- what a node is apart from its entries -/
structure NodeForm where
  type : Nat
  subtype : Nat
  root : Bool
  leaf : Bool
  fixed : Bool
  keySize : Nat
  valueSize : Nat

namespace NodeForm

def flags (f : NodeForm) : Nat := f.root.toNat + 2 * f.leaf.toNat + 4 * f.fixed.toNat

def footer (f : NodeForm) : Bytes :=
  if f.root then List.replicate 4 0 ++ (toLE 4 4096 ++ (toLE 4 f.keySize ++ (toLE 4 f.valueSize ++ List.replicate 24 0))) else []

def header (f : NodeForm) (count tocSize : Nat) : Bytes :=
  List.replicate 24 0 ++ (toLE 4 f.type ++ (toLE 4 f.subtype ++ (toLE 2 f.flags ++ (toLE 2 0 ++ (toLE 4 count ++ (toLE 2 0 ++ (toLE 2 tocSize ++ (toLE 2 0 ++ List.replicate 10 0))))))))

/-- bytes that the entries need, with header and footer -/
def need (f : NodeForm) (es : List Record) : Nat := 56 + (tocOf f.fixed 0 es).length + (keysOf es).length + (valuesOf es).length + f.footer.length

/-- the node with entries, as a block -/
def bytes (f : NodeForm) (es : List Record) : Bytes :=
  f.header es.length (tocOf f.fixed 0 es).length ++
    (tocOf f.fixed 0 es ++ (keysOf es ++ (List.replicate (4096 - f.need es) 0 ++ (valuesOf es ++ f.footer))))

/-- entries that fit a node -/
structure Fits (f : NodeForm) (es : List Record) : Prop where
  type : f.type < 2 ^ 32
  kind : f.type % 2 ^ 24 = 0 ∨ f.type % 2 ^ 24 = 2 ∨ f.type % 2 ^ 24 = 3
  subtype : f.subtype < 2 ^ 32
  sizes : f.keySize < 2 ^ 32 ∧ f.valueSize < 2 ^ 32
  room : f.need es ≤ 4096
  toc : (tocOf f.fixed 0 es).length < 4000
  objectMap : f.fixed = true → f.subtype = 0xb ∧ ∀ e ∈ es, e.1.length = 16 ∧ e.2.length = if f.leaf then 16 else 8

end NodeForm
end Verif.Spec
