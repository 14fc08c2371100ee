import Verif.Lemmas.HostileExample
/-! What the conditions of `c81_session_partial` come down to for a file system tree of one node, and a check of all records of such a tree -/
namespace Verif
open Res Spec
namespace Session
open FsTree (Kind enumLeaf enumerate lookupKey)

theorem streamRead_length {h : DataStream.Handle} {size off n : Nat} {d : Bytes} (hd : DataStream.streamRead h size off n = ok d) : d.length ≤ size := by
  have loop : ∀ (blockAt : Nat → Res (Bytes × Nat)) (size n off : Nat) (r : Bytes × Nat), DataStream.readLoop blockAt size off n = ok r → r.1.length ≤ n := by
    intro blockAt size n
    induction n using Nat.strongRecOn with
    | _ n ih =>
      intro off r h
      unfold DataStream.readLoop at h
      split at h
      · cases h; exact Nat.zero_le _
      · split at h
        · cases h
        · cases h
        · rename_i b bo _
          split at h
          · cases h
          · rename_i hbo
            simp only at h
            split at h
            · cases h
              simp only [List.length_take]
              omega
            · split at h
              · rename_i rest off' hr
                have := ih _ (by omega) _ _ hr
                cases h
                simp only [List.length_append, List.length_take] at *
                omega
              · cases h
              · cases h
  unfold DataStream.streamRead at hd
  split at hd
  · cases hd; exact Nat.zero_le _
  · obtain ⟨r, h1, hd⟩ := bind_eq_ok.1 hd
    cases hd
    unfold DataStream.read at h1
    obtain ⟨_, _, h1⟩ := bind_eq_ok.1 h1
    split at h1
    · cases h1; exact Nat.zero_le _
    · have := loop _ _ _ _ _ h1
      omega

theorem enumLeaf_mem {α : Type} {k : Kind α} {identifier : Nat} {es : List BTree.Entry} {xs : List α} (h : enumLeaf k identifier es = ok xs) {x : α} (hx : x ∈ xs) :
    ∃ e ∈ es, rdLE e.1 0 8 = ok (lookupKey k.dataType identifier) ∧ k.decode e = ok x := by
  induction es generalizing xs with
  | nil => cases h; cases hx
  | cons e es ih =>
    unfold enumLeaf at h
    obtain ⟨_, _, h⟩ := bind_eq_ok.1 h
    obtain ⟨key, hk, h⟩ := bind_eq_ok.1 h
    split at h
    · cases h; cases hx
    split at h
    · obtain ⟨e', h1, h2⟩ := ih h hx
      exact ⟨e', List.mem_cons_of_mem _ h1, h2⟩
    · rename_i hne
      obtain ⟨y, hy, h⟩ := bind_eq_ok.1 h
      obtain ⟨ys, hys, h⟩ := bind_eq_ok.1 h
      cases h
      rcases List.mem_cons.1 hx with rfl | hx
      · exact ⟨e, List.mem_cons_self .., by rw [hk, Classical.not_not.1 hne], hy⟩
      · obtain ⟨e', h1, h2⟩ := ih hys hx
        exact ⟨e', List.mem_cons_of_mem _ h1, h2⟩

theorem enumerate_mem {α : Type} {k : Kind α} {v : FsTree.Volume} {n : BTree.Node} (hr : FsTree.fsRootNode v = ok (some n)) (hl : n.leaf = true) {xid identifier : Nat} {xs : List α}
    (h : enumerate k v xid identifier = ok xs) {x : α} (hx : x ∈ xs) : ∃ e ∈ n.entries, rdLE e.1 0 8 = ok (lookupKey k.dataType identifier) ∧ k.decode e = ok x := by
  unfold enumerate at h
  rw [hr, ok_bind] at h
  have hn : ∀ fuel, FsTree.enumNode k (FsTree.fsSub v xid) identifier fuel n = enumLeaf k identifier n.entries := by
    intro fuel
    cases fuel <;> (unfold FsTree.enumNode; rw [if_pos hl])
  have h : FsTree.enumNode k (FsTree.fsSub v xid) identifier 257 n = ok xs := h
  rw [hn] at h
  exact enumLeaf_mem h hx

def extentOk (e : Bytes × Bytes) : Bool :=
  match Records.readExtent e with
  | ok x => decide (x.physical < 2 ^ 63) && decide (x.physical * 4096 % 2 ^ 64 + x.size ≤ 2 ^ 63)
  | _ => true

def attributeOk (e : Bytes × Bytes) : Bool :=
  match Records.readAttribute e with
  | ok a => decide (a.size ≤ 65537)
  | _ => true

/-- records of other types are not looked at -/
def recordOk (e : Bytes × Bytes) : Bool :=
  match rdLE e.1 0 8 with
  | ok key => (decide (key < 8 * 2 ^ 60) || extentOk e) && (decide (key < 4 * 2 ^ 60) || attributeOk e)
  | _ => true

def filesTidy (f : FileRead.Files) : Bool :=
  f.xts.isNone &&
  match FsTree.fsRootNode f.tree with
  | ok (some n) => n.leaf && n.entries.all recordOk
  | _ => false

theorem tidy_extents {f : FileRead.Files} (h : filesTidy f = true) : ExtentsFit f := by
  intro identifier es hes x hx
  unfold filesTidy at h
  cases hr : FsTree.fsRootNode f.tree with
  | err => simp [hr] at h
  | ub => simp [hr] at h
  | ok o =>
    cases o with
    | none => simp [hr] at h
    | some n =>
      simp only [hr, Bool.and_eq_true, Option.isNone_iff_eq_none, List.all_eq_true] at h
      obtain ⟨h0, hl, ha⟩ := h
      obtain ⟨e, he, h1, h2⟩ := enumerate_mem hr hl hes hx
      have := ha e he
      unfold recordOk at this
      rw [h1] at this
      simp only [Bool.and_eq_true, Bool.or_eq_true, decide_eq_true_eq] at this
      have h3 : 8 * 2 ^ 60 ≤ lookupKey (FsTree.extentKind Records.readExtent).dataType identifier := Nat.left_le_or
      have h4 := this.1.resolve_left (by omega)
      unfold extentOk at h4
      have h2 : Records.readExtent e = ok x := h2
      rw [h2] at h4
      simp only [Bool.and_eq_true, decide_eq_true_eq] at h4
      exact ⟨h4.1, h4.2, fun hc => by rw [h0] at hc; cases hc⟩

theorem tidy_forks {f : FileRead.Files} (h : filesTidy f = true) {compare : Bytes → Bytes → Res Bool} {i : Records.Inode} {as : List Records.Attribute} {a : Records.Attribute} {D : Bytes}
    (hes : FsTree.extendedAttributes f.tree f.xid i.identifier = ok as) (hx : a ∈ as) (hD : FileEntry.content (FileRead.env f compare i) a = ok (some D)) : ForkFits D := by
  refine .inl ?_
  have hs : a.size ≤ 65537 := by
    unfold filesTidy at h
    cases hr : FsTree.fsRootNode f.tree with
    | err => simp [hr] at h
    | ub => simp [hr] at h
    | ok o =>
      cases o with
      | none => simp [hr] at h
      | some n =>
        simp only [hr, Bool.and_eq_true, Option.isNone_iff_eq_none, List.all_eq_true] at h
        obtain ⟨h0, hl, ha⟩ := h
        obtain ⟨e, he, h1, h2⟩ := enumerate_mem hr hl hes hx
        have := ha e he
        unfold recordOk at this
        rw [h1] at this
        simp only [Bool.and_eq_true, Bool.or_eq_true, decide_eq_true_eq] at this
        have h3 : 4 * 2 ^ 60 ≤ lookupKey (FsTree.attributeKind Records.readAttribute).dataType i.identifier := Nat.left_le_or
        have h4 := this.2.resolve_left (by omega)
        unfold attributeOk at h4
        have h2 : Records.readAttribute e = ok a := h2
        rw [h2] at h4
        simpa using h4
  unfold FileEntry.content at hD
  split at hD
  · obtain ⟨d, h1, hD⟩ := bind_eq_ok.1 hD
    cases hD
    obtain ⟨_, _, h1⟩ := bind_eq_ok.1 h1
    exact Nat.le_trans (streamRead_length h1) hs
  split at hD
  · split at hD
    · obtain ⟨_, _, hD⟩ := bind_eq_ok.1 hD
      obtain ⟨_, _, hD⟩ := bind_eq_ok.1 hD
      cases hD
      exact Nat.zero_le _
    · obtain ⟨_, _, hD⟩ := bind_eq_ok.1 hD
      obtain ⟨_, _, hD⟩ := bind_eq_ok.1 hD
      split at hD
      · cases hD
        rw [List.length_take]
        omega
      · cases hD
  · cases hD

/-- the volume has no key bags, and the records of its file system tree fit -/
def volumeTidy (x : External) (image : Container.Image) (k : Container.Opened) (v : VolumeOpen.Opened) : Bool :=
  v.state.keyBag.isNone && v.state.containerBag.isEmpty &&
  match FileRead.files x.cipher image k v v.state with
  | ok f => filesTidy f
  | _ => true

theorem files_state {c : VolumeOpen.Cipher} {image : Container.Image} {k : Container.Opened} {v : VolumeOpen.Opened} {s : Volume.State} (h : s.keyBag = none) (hv : v.state.keyBag = none) :
    FileRead.files c image k v s = FileRead.files c image k v v.state := by
  unfold FileRead.files VolumeOpen.trees VolumeOpen.context
  rw [h, hv]
  rfl

end Session

namespace HostileExample
open Session

def volumeIs (p : VolumeOpen.Opened → Bool) : Res VolumeOpen.Opened → Bool
  | ok v => p v
  | _ => false

theorem tidy : volumeIs (volumeTidy plain VolumeExample.image VolumeExample.opened) (VolumeOpen.volumeByIndex plain.cipher plain.vector VolumeExample.image VolumeExample.opened 0) = true := by
  decide +kernel

def reading : Script UInt8 := ⟨0, [], .identifier 7, [(.size, {}), (.target, {attributes := true})], [.read 3, .seek 5000, .read 2, .seek 8500, .read 2]⟩

theorem reads : session plain Name.utf8 Name.utf8 0x2f VolumeExample.image reading = ok [ok [0x61, 0x61, 0x61], ok [], ok [0, 0], ok [], ok [0x62, 0x62]] := by
  have h : Container.openRead (fun uuid => plain.cipher.xts (uuid, uuid)) plain.vector VolumeExample.image = ok VolumeExample.opened := VolumeExample.opens
  unfold session
  rw [h, ok_bind]
  decide +kernel

end HostileExample
end Verif
