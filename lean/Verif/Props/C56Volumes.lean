import Verif.Props.C56
import Verif.Props.C53
/-!
# C56: from the image of a container to what programs see of a mounted volume
-/
namespace Verif.Props
open Verif Res Spec FileRead
open Verif.Mount (Mounted)
open Container VolumeOpen

section
variable {cx : VolumeOpen.Cipher} {vector : Nat → Bool} {img : Container.Image} {k : Container.Opened} {d0 d : Bytes} {records files : List Record}

theorem folding_bit {n : Nat} {b : Bool} (h : b = true ↔ n % 2 = 1) : decide (n % 2 ≠ 0) = b := by
  cases b with
  | true => exact decide_eq_true (by have := h.1 rfl; omega)
  | false => exact decide_eq_false (by intro hne; have := h.2 (by omega); cases this)

/-- Programs that use a mounted volume that is not encrypted see the files that are stored in the image of the container, whatever they ask and in whatever order, after any calls to the functions for passwords and
locking.

What is missing: as in `c50_reach_partial` and `c56_session_partial`. -/
theorem c56_volume_partial (hb : Blocks img) (hs : k.superblock = Container.superblockOf d0) (hv : Nx.Valid d0) (hvec : vector k.size = true)
    (ht : OmTree (containerBlocks img k.size) k.tree records) {index : Nat} (hi : index < numberOfVolumes k) (h0 : Nx.volume d0 index ≠ 0) {root : Nat} {vs : List SnapValue}
    (hr : ∀ r, Newest records (Nx.volume d0 index) (objectXid d0) r → StoredVolume img (field r.2 8 8) d root) (hx : HasVersion records (Nx.volume d0 index) (objectXid d0))
    (hsn : HasSnapshots (containerBlocks img k.size) root d vs) (hun : k.keyBag = none ∨ Apsb.unencrypted d)
    {mappings : List Record} (hm : OmTree (containerBlocks img k.size) root mappings) (hrx : HasVersion mappings (Apsb.fsRoot d) (objectXid d))
    (hfs : ∀ r, Newest mappings (Apsb.fsRoot d) (objectXid d) r → FsHolds (plainStorage img k.size root (field r.2 8 8)) (objectXid d) files)
    {V : View} (hfold : V.format.caseInsensitive = true ↔ Apsb.incompatible d % 2 = 1) (hT : V.text = shownName) {c : Codec} (hV : VolumeHas c files (dataBlocks img) none V)
    (p : KeyBag.Prims) (ops : List Volume.Op) :
    ∃ v, volumeByIndex cx vector img k index = ok v ∧ ∀ s, Volume.run p v.state ops = ok s → ∃ F, FileRead.files cx img k v s = ok F ∧
      ∀ m : Mounted, m.files = F → m.unpack = c → Libraries m → (∀ i, Reach V.dirs i → Compares m.compare (V.file i).stored) →
        ∀ requests : List Fuse.Request, (∀ r ∈ requests, Asked V r) → V.Trace Terms.shown [] requests (Mount.serveAll m requests {}).1 := by
  obtain ⟨v, h1, h2, h3⟩ := c50_reach_partial (c := cx) hb hs hv hvec ht hi h0 hr hx hsn hun hm hrx hfs p ops
  refine ⟨v, h1, fun s hs => ?_⟩
  obtain ⟨_, h4, t, h5, h6⟩ := h3 s hs
  unfold FileRead.files
  rw [h5, ok_bind]
  refine ⟨_, rfl, fun m hF hc hL hcmp requests ha => ?_⟩
  subst hc
  refine c56_session_partial.2 m hL _ (objectXid d) files (dataBlocks img) none V ⟨?_, ?_, h6, hV, hcmp⟩ hT requests ha
  · rw [hF]
    refine ⟨rfl, ?_, ?_, ?_, ?_, fun _ h => nomatch h⟩
    · show v.superblock.transaction = _
      rw [h2]
      rfl
    · show (storage cx (readBytes img) (context s)).2 = none
      unfold context
      rw [h4]
      rfl
    · intro b raw hraw
      show (storage cx (readBytes img) (context s)).1 _ _ = _
      unfold context
      rw [h4]
      exact readBytes_block hraw
    · exact fun b raw hraw => (dataBlocks_some hraw).2.2
  · rw [hF]
    show decide (v.superblock.incompatible % 2 ≠ 0) = _
    rw [h2]
    exact folding_bit hfold

/-- Programs that use a mounted encrypted volume that was unlocked see the files that are stored in encrypted form in the image of the container; and unlocking succeeds with a correct password.

What is missing: as in `c51_reach_partial` and `c56_session_partial`. -/
theorem c56_encrypted_partial {p : KeyBag.Prims} {enc : Bytes → Bytes → Bytes} (hpr : KeyBag.PrimsOk p enc) {encX : Bytes × Bytes → Bytes → Bytes → Bytes}
    (hX : ∀ ks, TweakableCipher 512 (encX ks) (cx.xts ks)) (hb : Blocks img) (hs : k.superblock = Container.superblockOf d0) (hv : Nx.Valid d0) (hvec : vector k.size = true)
    (ht : OmTree (containerBlocks img k.size) k.tree records) {index : Nat} (hi : index < numberOfVolumes k) (h0 : Nx.volume d0 index ≠ 0) {root : Nat} {vs : List SnapValue}
    (hr : ∀ r, Newest records (Nx.volume d0 index) (objectXid d0) r → StoredVolume img (field r.2 8 8) d root) (hx : HasVersion records (Nx.volume d0 index) (objectXid d0))
    (hsn : HasSnapshots (containerBlocks img k.size) root d vs) {cb vb : List BagEntry} (hkb : k.keyBag = some (some (entriesOf cb))) (he : EncryptedVolume encX img cb vb d)
    {S : Bytes → Prop} {vk : Bytes} {keys : Bytes × Bytes} (hsec : Secrets p.prf enc p.sha vb cb (Apsb.uuid d) S vk keys) {mappings : List Record}
    (hm : OmTree (containerBlocks img k.size) root mappings) (hrx : HasVersion mappings (Apsb.fsRoot d) (objectXid d)) {plain : Nat → Option Bytes}
    (hpl : EncryptedBlocks (encX keys) img plain) (hrange : ∀ b d, plain b = some d → b * 4096 < k.size ∧ b < 2 ^ 31)
    (hfs : ∀ r, Newest mappings (Apsb.fsRoot d) (objectXid d) r → FsHolds (encryptedStorage img plain k.size root (field r.2 8 8)) (objectXid d) files)
    {V : View} (hfold : V.format.caseInsensitive = true ↔ Apsb.incompatible d % 2 = 1) (hT : V.text = shownName) {c : Codec} (hV : VolumeHas c files (dataBlocks img) (some (encX keys)) V) :
    ∃ v, volumeByIndex cx vector img k index = ok v ∧ v.state.isLocked = true ∧
      ∀ ops, (∀ o ∈ ops, OpOk o) → (∀ q ∈ secretsOf ops, S q) → ∀ s, Volume.run p v.state ops = ok s →
        (∀ pw, s.user = some pw ∨ s.recovery = some pw → IsSecret p.prf enc vb pw → ∀ bk bm : Bytes, bk.length = 32 → bm.length = 32 →
          ∃ s', Volume.run p v.state (ops ++ [.unlock bk bm]) = ok s' ∧ s'.isLocked = false) ∧
        (s.isLocked = false → ∃ F, FileRead.files cx img k v s = ok F ∧
          ∀ m : Mounted, m.files = F → m.unpack = c → Libraries m → (∀ i, Reach V.dirs i → Compares m.compare (V.file i).stored) →
            ∀ requests : List Fuse.Request, (∀ r ∈ requests, Asked V r) → V.Trace Terms.shown [] requests (Mount.serveAll m requests {}).1) := by
  obtain ⟨v, h1, hl, h2, h3⟩ := c51_reach_partial (c := cx) hpr hX hb hs hv hvec ht hi h0 hr hx hsn hkb he hsec hm hrx hpl hrange hfs
  refine ⟨v, h1, hl, fun ops hops hS s hrun => ⟨(h3 ops hops hS s hrun).1, fun hl => ?_⟩⟩
  obtain ⟨hb1, hb2, t, h5, h6⟩ := (h3 ops hops hS s hrun).2 hl
  have hctx : context s = some (some keys) := by
    unfold context
    rw [hb1, hb2]
    rfl
  unfold FileRead.files
  rw [h5, ok_bind]
  refine ⟨_, rfl, fun m hF hc hL hcmp requests ha => ?_⟩
  subst hc
  refine c56_session_partial.2 m hL _ (objectXid d) files (dataBlocks img) (some (encX keys, cx.xts keys)) V ⟨?_, ?_, h6, hV, hcmp⟩ hT requests ha
  · rw [hF]
    refine ⟨rfl, ?_, ?_, ?_, ?_, ?_⟩
    · show v.superblock.transaction = _
      rw [h2]
      rfl
    · show (storage cx (readBytes img) (context s)).2 = _
      rw [hctx]
      rfl
    · intro b raw hraw
      show (storage cx (readBytes img) (context s)).1 _ _ = _
      rw [hctx]
      exact readBytes_block hraw
    · exact fun b raw hraw => (dataBlocks_some hraw).2.2
    · intro c hc
      cases hc
      exact hX keys
  · rw [hF]
    show decide (v.superblock.incompatible % 2 ≠ 0) = _
    rw [h2]
    exact folding_bit hfold

end
end Verif.Props
