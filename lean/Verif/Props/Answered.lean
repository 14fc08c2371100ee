import Verif.Props.C11
import Verif.Props.C53
import Verif.Props.C64
import Verif.Props.C65
import Verif.Props.C66
import Verif.Props.C82
import Verif.Props.C83
import Verif.Props.C88
/-!
# Every call is answered

The theorems on sequences of calls (C11, C53, C64, C65, C66, C82, C88) pair calls with answers, or are about all answers (C83). Here: no call is without an answer, so that the pairs are about all calls that were made, in that order.
-/
namespace Verif.Props
open Verif Res Spec

theorem zipWith_all {α β γ δ : Type} {f : α → β → γ} {g : γ → δ} {h : α → δ} (hf : ∀ a b, g (f a b) = h a) : ∀ {l : List α} {l' : List β}, l'.length = l.length →
    (List.zipWith f l l').map g = l.map h
  | [], _, _ => by simp
  | _ :: _, [], e => by simp at e
  | a :: l, b :: l', e => by simp [hf, zipWith_all hf (l := l) (l' := l') (by simpa using e)]

/-- C11: reading compressed data -/
theorem c11_answered (c : Codec) (D : Bytes) (ops : List (FileOp × (Nat → Nat → Bool))) (h : Compressed.Handle) :
    (Compressed.observed ops (Compressed.run c D ops h)).map (·.1) = ops.map (·.1) := by
  have hl : ∀ (ops : List (FileOp × (Nat → Nat → Bool))) (h : Compressed.Handle), (Compressed.run c D ops h).length = ops.length := by
    intro ops
    induction ops with
    | nil => intro h; rfl
    | cons o os ih => intro h; simp [Compressed.run, ih]
  unfold Compressed.observed
  refine zipWith_all ?_ (hl ops h)
  intros
  rfl

/-- C53: reading an open file -/
theorem c53_answered (c : Codec) (ops : List FileOp) (r : FileRead.Reader) : (seen ops (FileRead.run c ops r)).map (·.1) = ops := by
  have hl : ∀ (ops : List FileOp) (r : FileRead.Reader), (FileRead.run c ops r).length = ops.length := by
    intro ops
    induction ops with
    | nil => intro r; rfl
    | cons o os ih => intro r; simp [FileRead.run, ih]
  unfold seen
  refine Eq.trans (b := ops.map id) ?_ (List.map_id ops)
  refine zipWith_all ?_ (hl ops r)
  intros
  rfl

/-- C64: methods of a file in Python -/
theorem c64_answered (c : Codec) (size : Res Nat) (ks : List PyRead.Call) (r : FileRead.Reader) : (Spec.PyRead.seen ks (PyRead.run c size ks r)).map (·.1) = ks := by
  have hl : ∀ (ks : List PyRead.Call) (r : FileRead.Reader), (PyRead.run c size ks r).length = ks.length := by
    intro ks
    induction ks with
    | nil => intro r; rfl
    | cons o os ih => intro r; simp [PyRead.run, ih]
  unfold Spec.PyRead.seen
  refine Eq.trans (b := ks.map id) ?_ (List.map_id ks)
  refine zipWith_all ?_ (hl ks r)
  intros
  rfl

/-- C65: sequences in Python -/
theorem c65_answered {α σ : Type} (us : List (PySequence.Use × Prop × (Nat → σ → Res α × σ))) (s : PySequence.Sequence) (t : σ) :
    (Spec.Sequence.seen (us.map fun u => (u.1, u.2.1)) (PySequence.run (us.map fun u => (u.1, u.2.2)) s t)).map (fun x => (x.1, x.2.1)) = us.map fun u => (u.1, u.2.1) := by
  induction us generalizing s t with
  | nil => rfl
  | cons u us ih => simp [PySequence.run, Spec.Sequence.seen, ih]

/-- C66: objects of a volume in Python -/
theorem c66_answered (m : Mount.Mounted) (decode : Bytes → Option (List Nat)) (as : List Spec.Py.Ask) (os : List PyVolume.Obj) : (PyVolume.asks m decode as os).map (·.1) = as := by
  induction as generalizing os with
  | nil => rfl
  | cons a as ih => simp [PyVolume.asks, ih]

/-- C82: objects for an extended attribute -/
theorem c82_answered (F : FileRead.Files) (btree : Res (List DataStream.Extent)) (a : Records.Attribute) (l : List (ValueAction × AttributeRead.Env)) (s : AttributeRead.State) :
    (AttributeRead.seen F btree l (AttributeRead.acts F a l s)).map (·.1) = l.map (·.1) := by
  have hl : ∀ (l : List (ValueAction × AttributeRead.Env)) (s : AttributeRead.State), (AttributeRead.acts F a l s).length = l.length := by
    intro l
    induction l with
    | nil => intro s; rfl
    | cons o os ih => intro s; simp [AttributeRead.acts, ih]
  unfold AttributeRead.seen
  refine zipWith_all ?_ (hl l s)
  intros
  rfl

/-- C83: going through a volume -/
theorem c83_answered {α : Type} [DecidableEq α] (x : Session.External) (dn : Name.Decoder UInt8) (dq : Name.Decoder α) (separator : α) (image : Container.Image) (t : Browse.Script α)
    (answers : List (Res Browse.Answer)) (h : Browse.browse x dn dq separator image t = ok answers) : answers.length = t.steps.length := by
  have hl : ∀ (f : FileRead.Files) (cs : List (Browse.Step α × Browse.Fault)) (s : Browse.State), (Browse.steps x dn dq separator f cs s).length = cs.length := by
    intro f cs
    induction cs with
    | nil => intro s; rfl
    | cons o os ih => intro s; simp [Browse.steps, ih]
  unfold Browse.browse at h
  obtain ⟨k, _, h⟩ := bind_eq_ok.1 h
  obtain ⟨v, _, h⟩ := bind_eq_ok.1 h
  obtain ⟨s, _, h⟩ := bind_eq_ok.1 h
  obtain ⟨f, _, h⟩ := bind_eq_ok.1 h
  cases h
  exact hl f t.steps {}

/-- the example of C83 -/
example : browsing.steps.length = 26 := (c83_answered _ _ _ _ _ _ _ browsed).symm

/-- C88: methods of an extended attribute in Python -/
theorem c88_answered (F : FileRead.Files) (btree : Res (List DataStream.Extent)) (a : Records.Attribute) (l : List (PyAttribute.Action × AttributeRead.Env)) (s : AttributeRead.State) :
    (PyAttribute.seen F btree l (PyAttribute.run F a l s)).map (·.1) = l.map (·.1) := by
  have hl : ∀ (l : List (PyAttribute.Action × AttributeRead.Env)) (s : AttributeRead.State), (PyAttribute.run F a l s).length = l.length := by
    intro l
    induction l with
    | nil => intro s; rfl
    | cons o os ih => intro s; simp [PyAttribute.run, ih]
  unfold PyAttribute.seen
  refine zipWith_all ?_ (hl l s)
  intros
  rfl

/-- a program that stops after its first answer is not one of these -/
example (o : FileOp) : (seen [o, o] [ok []]).map (·.1) ≠ [o, o] := by simp [seen]

end Verif.Props
