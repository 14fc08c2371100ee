import Verif.Model.PyFileObject
/-!
# File objects of Python, and computations that read them

What the documentation of Python says about binary files, https://docs.python.org/3/library/io.html; the signatures of the methods are those of `PyFile.Object`.
-/
namespace Verif.Spec.FileObject
open PyFile

/-- An object is a file with a content: `at_ s p` says that its position is `p`. `read` returns bytes from the position on, not more than asked and possibly less, and moves the position. -/
structure File {σ : Type} (o : Object σ) (content : Bytes) (at_ : σ → Nat → Prop) : Prop where
  read : ∀ s p n, at_ s p → 0 < n → ∃ b s', o.read n s = (.value (.bytes b), s') ∧ b <+: content.drop p ∧ b.length ≤ n ∧ at_ s' (p + b.length)
  seekStart : ∀ s p k, at_ s p → ∃ v s', o.seek (Int.ofNat k) 0 s = (.value v, s') ∧ at_ s' k
  seekEnd : ∀ s p, at_ s p → ∃ v s', o.seek 0 2 s = (.value v, s') ∧ at_ s' content.length
  tell : ∀ s p, at_ s p → ∃ s', o.tell s = (.value (.int p), s') ∧ at_ s' p
  getOffset : ∀ m, o.getOffset = some m → ∀ s p, at_ s p → ∃ s', m s = (.value (.int p), s') ∧ at_ s' p
  getSize : ∀ m, o.getSize = some m → ∀ s p, at_ s p → ∃ s', m s = (.value (.int content.length), s') ∧ at_ s' p

/-- `read` returns less than asked only at the end, as `BufferedReader` and `BytesIO` do -/
def Buffered {σ : Type} (o : Object σ) (content : Bytes) (at_ : σ → Nat → Prop) : Prop :=
  ∀ s p n b s', at_ s p → 0 < n → o.read n s = (.value (.bytes b), s') → b.length = min n (content.length - p)

/-- never more bytes than asked -/
def Polite {σ : Type} (o : Object σ) : Prop := ∀ n s b s', o.read n s = (.value (.bytes b), s') → b.length ≤ n

/-- a computation that gets data by reading at offsets only; what it reads next may depend on what it got -/
inductive Client (α : Type) where
  | done (a : α)
  | read (offset n : Nat) (next : Option Bytes → Client α)

/-- reads of at least one byte, into a buffer in memory -/
def Client.Proper {α : Type} : Client α → Prop
  | .done _ => True
  | .read _ n next => 0 < n ∧ n < 2 ^ 63 ∧ ∀ r, (next r).Proper

/-- its result if a read gives the bytes of the content, or fails if there are not as many -/
def Client.result {α : Type} (content : Bytes) : Client α → α
  | .done a => a
  | .read offset n next => ((next (if offset < 2 ^ 63 ∧ offset + n ≤ content.length then some ((content.drop offset).take n) else none)).result content)

/-- its result with a way to read; `ub` if a read was undefined -/
def Client.run {α σ : Type} (read : Nat → Nat → σ → Res Bytes × σ) : Client α → σ → Res α × σ
  | .done a, s => (.ok a, s)
  | .read offset n next, s =>
    match read offset n s with
    | (.ok b, s) => (next (some b)).run read s
    | (.err, s) => (next none).run read s
    | (.ub, s) => (.ub, s)

/-- a file as blocks of 4096 bytes -/
def blocks (content : Bytes) : Nat → Option Bytes := fun b => some ((content.drop (b * 4096)).take 4096)

end Verif.Spec.FileObject
