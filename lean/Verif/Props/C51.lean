import Verif.Spec.Encrypted
import Verif.Props.C50
import Verif.Props.C32
import Verif.Props.C26
import Verif.Props.C16
import Verif.Props.C15
/-!
# C51 A correct password gives access to the files of an encrypted volume

From the encrypted key bags in the image to the entries of a directory: an encrypted volume opens locked, setting a correct password and unlocking succeeds, and whenever the volume
reports to be unlocked, after any calls, its file system tree is read with the right keys.
-/
namespace Verif.Props
open Verif Res Spec KeyBag

/-- what the library reads of a KEK -/
def kekOf (o : KekFields) : Kek := { hmac := o.hmac, identifier := o.uuid, method := o.method, wrapped := o.wrapped, iterations := beNat o.iterations, salt := o.salt }

theorem readKek_of {e : BagEntry} {o : KekFields} (h : HasKek e o) : readKek e.data e.data.length = ok (kekOf o) := by
  have := c15_fields o h.1 []
  rw [List.append_nil] at this
  rw [h.2]
  exact this

theorem pwSize_iff {m n : Nat} : PwSize m n ↔ secretBytes m = some n := by
  unfold PwSize secretBytes
  split
  · simp only [Option.some.injEq]; omega
  · split
    · simp only [Option.some.injEq]; omega
    · simp only [reduceCtorEq, iff_false]; omega

theorem keySize_iff {m n : Nat} : KeySize m n ↔ masterBytes m = some n := by
  unfold KeySize masterBytes
  split
  · simp only [Option.some.injEq]; omega
  · split
    · simp only [Option.some.injEq]; omega
    · simp only [reduceCtorEq, iff_false]; omega

theorem mem_entriesOf {es : List BagEntry} {e : Entry} : e ∈ entriesOf es ↔ ∃ b ∈ es, b.identifier = e.identifier ∧ b.type = e.type ∧ b.data = e.data := by
  unfold entriesOf
  rw [List.mem_map]
  constructor
  · rintro ⟨b, hb, rfl⟩
    exact ⟨b, hb, rfl, rfl, rfl⟩
  · rintro ⟨b, hb, h1, h2, h3⟩
    refine ⟨b, hb, ?_⟩
    cases e
    simp only at h1 h2 h3
    rw [h1, h2, h3]

theorem getMasterKey_found {p : Prims} {enc : Bytes → Bytes → Bytes} (hp : PrimsOk p enc) (uuid vk mk : Bytes) (hv : vk.length = 32) (hm : mk.length = 32) (es : List Entry)
    (hes : ∀ e ∈ es, e.type = 2 → e.identifier = uuid → ∃ k n, readKek e.data e.data.length = ok k ∧ KeySize k.method n)
    (e : Entry) (he : e ∈ es) (ht : e.type = 2) (hi : e.identifier = uuid) (k : Kek) (hk : readKek e.data e.data.length = ok k) (n : Nat) (hn : KeySize k.method n) (m : Bytes)
    (hw : WrapsKey enc (vk.take n) (k.wrapped.take (n + 8)) m) : ∃ v, getMasterKey p uuid vk mk es = ok (some v) := by
  induction es with
  | nil => simp at he
  | cons x es ih =>
    have ih' := fun h => ih (fun y hy => hes y (by simp [hy])) h
    have rest : x ≠ e → ∃ v, getMasterKey p uuid vk mk es = ok (some v) := by
      intro hne
      exact ih' (by
        rcases List.mem_cons.1 he with rfl | h
        · exact absurd rfl hne
        · exact h)
    rw [getMasterKey]
    by_cases hx : x.type ≠ 2
    · rw [if_pos hx]
      exact rest (by rintro rfl; exact hx ht)
    · rw [if_neg hx]
      by_cases hxi : x.identifier ≠ uuid
      · rw [if_pos hxi]
        exact rest (by rintro rfl; exact hxi hi)
      · rw [if_neg hxi]
        obtain ⟨kx, nx, r1, r2⟩ := hes x (by simp) (by omega) (by simpa using hxi)
        have hs := readKek_sized r1
        rw [r1, ok_bind]
        obtain ⟨iv, bs, q1, q2, q3, q4, ee⟩ := unlockWithKey_eq hp hs vk mk hv hm r2
        rw [ee]
        split
        · exact ⟨_, rfl⟩
        · rename_i hiv
          refine rest ?_
          rintro rfl
          rw [hk] at r1
          cases r1
          have hmn : nx = n := by unfold KeySize at r2 hn; omega
          subst hmn
          obtain ⟨bs', u1, u2, u3⟩ := hw
          rw [q4] at u3
          exact hiv (by rw [(keyWrap_inj (hp.cipher _) q1 (by rfl) q2 u1 u3).1]; exact kekIv_eq.symm)

variable {p : Prims} {enc : Bytes → Bytes → Bytes} {vb cb : List BagEntry} {uuid vk : Bytes} {keys : Bytes × Bytes} {S : Bytes → Prop}

/-- a password in `S` leads to no other keys -/
theorem opens_keys (h : Secrets p.prf enc p.sha vb cb uuid S vk keys) {pw : Bytes} (hpw : S pw) {keys' : Bytes × Bytes}
    (ho : Opens p enc (entriesOf vb) (entriesOf cb) uuid pw keys') : keys' = keys := by
  obtain ⟨e, he, ht, k, hk, n, x, hn, hx, hw, e', he', ht', hi', k', hk', n', mk, buf, hn', hmk, hbuf, hw', hkeys⟩ := ho
  obtain ⟨b, hb, _, b2, b3⟩ := mem_entriesOf.1 he
  obtain ⟨o, _, ho, _, hi0, hi1⟩ := h.understood b hb (by omega)
  have hk1 := readKek_of ho
  rw [b3, hk] at hk1
  have hk1 := Res.ok.inj hk1
  subst hk1
  have hxv : x = vk := by
    refine h.same b hb (by omega) o ho pw hpw x ⟨?_, ?_⟩
    · rw [hx]; exact pwSize_iff.1 hn
    · rw [hx]
      have : (kekOf o).iterations % 2 ^ 32 = beNat o.iterations := Nat.mod_eq_of_lt hi1
      rw [this] at hw
      exact hw
  subst hxv
  obtain ⟨b', hb', b1', b2', b3'⟩ := mem_entriesOf.1 he'
  obtain ⟨o', n0, ho', hm', hle⟩ := h.master b' hb' (by omega) (by rw [b1', hi'])
  have hk2 := readKek_of ho'
  rw [b3', hk'] at hk2
  have hk2 := Res.ok.inj hk2
  subst hk2
  have hn0 : n0 = n' := by
    have := keySize_iff.1 hn'
    have e : (kekOf o').method = o'.method := rfl
    rw [e, hm'] at this
    exact Option.some.inj this
  have := h.sameMaster b' hb' (by omega) (by rw [b1', hi']) o' ho' mk ⟨by rw [hmk]; exact keySize_iff.1 hn', by
    rw [hmk]
    rw [← hbuf, List.take_take, Nat.min_eq_left (by omega)]
    exact hw'⟩
  rw [hkeys, ← this]
  unfold volumeKeys
  rw [hmk]
  rfl

open Volume

/-- Unlocking with a correct password, as user or recovery password, succeeds and gives the keys of the volume; `bk` and `bm` are the prior contents of local buffers. -/
theorem c51_unlock (hp : PrimsOk p enc) (h : Secrets p.prf enc p.sha vb cb uuid S vk keys) {s : State} (hb : s.keyBag = some (entriesOf vb)) (hc : s.containerBag = entriesOf cb)
    (hi : s.uuid = uuid) (hS : ∀ q, s.user = some q ∨ s.recovery = some q → S q ∧ q.length ≤ 2 ^ 63 - 1) {pw : Bytes} (hpw : s.user = some pw ∨ s.recovery = some pw)
    (hs : IsSecret p.prf enc vb pw) (bk bm : Bytes) (hbk : bk.length = 32) (hbm : bm.length = 32) :
    Volume.unlock p bk bm s = ok ({ s with isLocked := false, keys := some keys }, true) := by
  have hu : ∀ q, s.user = some q → q.length ≤ 2 ^ 63 - 1 := fun q e => (hS q (.inl e)).2
  have hr : ∀ q, s.recovery = some q → q.length ≤ 2 ^ 63 - 1 := fun q e => (hS q (.inr e)).2
  have hes : ∀ e ∈ entriesOf vb, e.type = 3 → ∃ k n, readKek e.data e.data.length = ok k ∧ PwSize k.method n ∧ k.iterations % 2 ^ 32 ≠ 0 := by
    intro e he ht
    obtain ⟨b, hb, _, b2, b3⟩ := mem_entriesOf.1 he
    obtain ⟨o, n, ho, hm, hi0, hi1⟩ := h.understood b hb (by omega)
    refine ⟨kekOf o, n, by rw [← b3]; exact readKek_of ho, pwSize_iff.2 hm, ?_⟩
    show beNat o.iterations % 2 ^ 32 ≠ 0
    rw [Nat.mod_eq_of_lt hi1]
    omega
  obtain ⟨e, he, ht, o, ho, x, hx1, hx2⟩ := hs
  have hiter : beNat o.iterations % 2 ^ 32 = beNat o.iterations := by
    obtain ⟨o', n, ho', _, _, hi1⟩ := h.understood e he ht
    have h1 := readKek_of ho
    rw [readKek_of ho'] at h1
    have h1 := congrArg Kek.iterations (Res.ok.inj h1)
    have h1 : beNat o'.iterations = beNat o.iterations := h1
    rw [← h1]
    exact Nat.mod_eq_of_lt hi1
  obtain ⟨v, hv⟩ := c32_secret_found hp s.user s.recovery bk hbk hu hr (entriesOf vb) hes { identifier := e.identifier, type := e.type, data := e.data } (mem_entriesOf.2 ⟨e, he, rfl, rfl, rfl⟩) ht
    (kekOf o) (readKek_of ho) x.length (pwSize_iff.2 hx1) x pw hpw (by
      show WrapsKey enc (Spec.pbkdf2 p.prf pw o.salt (beNat o.iterations % 2 ^ 32) x.length) _ x
      rw [hiter]
      exact hx2)
  obtain ⟨e1, he1, ht1, pw1, hpw1, k1, hk1, n1, x1, hn1, hx1', hw1, hv1⟩ := getVolumeKey_some hp hu hr hbk hv
  have hxv : x1 = vk := by
    obtain ⟨b, hb, _, b2, b3⟩ := mem_entriesOf.1 he1
    obtain ⟨o1, _, ho1, _, hi0, hi1⟩ := h.understood b hb (by omega)
    have hk2 := readKek_of ho1
    rw [b3, hk1] at hk2
    have hk2 := Res.ok.inj hk2
    subst hk2
    refine h.same b hb (by omega) o1 ho1 pw1 (hS pw1 hpw1).1 x1 ⟨?_, ?_⟩
    · rw [hx1']; exact pwSize_iff.1 hn1
    · rw [hx1']
      have : (kekOf o1).iterations % 2 ^ 32 = beNat o1.iterations := Nat.mod_eq_of_lt hi1
      rw [this] at hw1
      exact hw1
  subst hxv
  have hn32 := hn1.le
  have lv : v.length = 32 := by rw [hv1, List.length_append, List.length_drop]; omega
  obtain ⟨e2, he2, ht2, hi2, o2, ho2, m, hm1, hm2⟩ := h.wrapsMaster
  have hmle : m.length ≤ x1.length := by
    obtain ⟨o3, n3, ho3, hm3, hle⟩ := h.master e2 he2 ht2 hi2
    have h1 := readKek_of ho2
    rw [readKek_of ho3] at h1
    have h1 : o3.method = o2.method := congrArg Kek.method (Res.ok.inj h1)
    rw [h1, hm1] at hm3
    have := Option.some.inj hm3
    omega
  have htake : v.take m.length = x1.take m.length := by rw [hv1, List.take_append_of_le_length hmle]
  obtain ⟨w, hw⟩ := getMasterKey_found hp uuid v bm lv hbm (entriesOf cb) (by
      intro e he ht hi
      obtain ⟨b, hb, b1, b2, b3⟩ := mem_entriesOf.1 he
      obtain ⟨o, n, ho, hm, _⟩ := h.master b hb (by omega) (by rw [b1, hi])
      exact ⟨kekOf o, n, by rw [← b3]; exact readKek_of ho, keySize_iff.2 hm⟩)
    { identifier := e2.identifier, type := e2.type, data := e2.data } (mem_entriesOf.2 ⟨e2, he2, rfl, rfl, rfl⟩) ht2 hi2 (kekOf o2) (readKek_of ho2) m.length (keySize_iff.2 hm1) m
    (by rw [htake]; exact hm2)
  obtain ⟨_, _, _, _, k4, hk4, n4, m4, hn4, hm4, _, hw4⟩ := getMasterKey_some hp lv hbm hw
  have lw : w.length = 32 := by
    have := hn4.le
    rw [hw4]
    split
    · omega
    · rw [List.length_append, List.length_take, hp.sha]; omega
  have hun : ∃ s', Volume.unlock p bk bm s = ok (s', true) := by
    unfold Volume.unlock
    rw [hb]
    simp only
    rw [hv, ok_bind]
    simp only
    rw [hi, hc, hw, ok_bind]
    simp only
    rw [rdN_le (by omega), ok_bind, rdN_le (by omega), ok_bind]
    exact ⟨_, rfl⟩
  obtain ⟨s', hun⟩ := hun
  obtain ⟨q, keys', hq, hs', hop⟩ := c32_unlock_sound hp bk bm hbk hbm s s' _ hb hu hr hun
  rw [hc, hi] at hop
  rw [hun, hs', opens_keys h (hS q hq).1 hop]

/-- After any calls, a volume with a key bag that is not locked has the keys of the volume, if all passwords given are among `S`. -/
theorem c51_keys (hp : PrimsOk p enc) (h : Secrets p.prf enc p.sha vb cb uuid S vk keys) (locked : Bool) (flags : Nat) (readBag : Nat → Nat → Res (List Entry)) (s s' : State)
    (ho : Volume.openRead (some (locked, entriesOf cb)) flags uuid readBag = ok s) (hb : s.keyBag = some (entriesOf vb)) (hcb : s.containerBag = entriesOf cb)
    (os : List Op) (hos : ∀ o ∈ os, OpOk o) (hS : ∀ q ∈ secretsOf os, S q) (hr : run p s os = ok s') (hl : s'.isLocked = false) : s'.keys = some keys := by
  obtain ⟨pw, h1, ks, h2, h3⟩ := c32_only_secret_partial hp _ flags uuid readBag s s' _ ho hb os hos hr hl
  rw [hcb] at h3
  rw [h2, opens_keys h (hS pw h1) h3]

/-! ## Reading what is stored in encrypted form -/

open Container VolumeOpen BTree FsTree

theorem blocksFrom_eq {image : Image} : ∀ {ds : List Bytes} {b : Nat}, (∀ i, i < ds.length → image (b + i) = ds[i]?) → blocksFrom image b ds.length = some ds.flatten
  | [], _, _ => rfl
  | d :: ds, b, h => by
    have h0 := h 0 (by simp)
    have hs := blocksFrom_eq (image := image) (ds := ds) (b := b + 1) (fun i hi => by
      have := h (i + 1) (by simpa using hi)
      rw [show b + 1 + i = b + (i + 1) by omega, this, List.getElem?_cons_succ])
    simp only [Nat.add_zero, List.getElem?_cons_zero] at h0
    rw [List.length_cons, blocksFrom, h0, hs]
    rfl

theorem fits {b n : Nat} (h : (b + n) * 4096 < 2 ^ 63) : b * 4096 < 2 ^ 64 ∧ n * 4096 < 2 ^ 64 ∧ b < 2 ^ 64 ∧ n < 2 ^ 64 := by omega

theorem fits_one {b : Nat} (h : b < 2 ^ 31) : (b + 1) * 4096 < 2 ^ 63 := by omega

theorem flatten_sized {n : Nat} : ∀ {l : List Bytes}, (∀ s ∈ l, s.length = n) → l.flatten.length = l.length * n
  | [], _ => by simp
  | a :: l, h => by
    rw [List.flatten_cons, List.length_append, flatten_sized (fun s hs => h s (by simp [hs])), h a (by simp), List.length_cons, Nat.succ_mul]
    omega

/-- reading and decrypting what is stored in encrypted form -/
theorem decrypts {image : Image} {enc dec : Bytes → Bytes → Bytes} (hc : TweakableCipher 512 enc dec) {b n : Nat} {data : Bytes} (h : StoredEncrypted enc image b n data)
    (hr : (b + n) * 4096 < 2 ^ 63) : ∃ e, readAt image (b * 4096) (n * 4096) = ok e ∧ e.length = n * 4096 ∧ data.length = n * 4096 ∧
      Crypto.crypt dec e (b * 4096 / 512) 512 (List.replicate (n * 4096) 0) = ok data := by
  obtain ⟨sectors, blocks, h1, h2, h3, h4, h5, h6, h7⟩ := h
  have l1 := flatten_sized h5
  have l2 := flatten_sized h2
  refine ⟨blocks.flatten, ?_, by rw [l1, h4], by rw [h3, l2]; omega, ?_⟩
  · unfold readAt
    rw [if_neg (by omega), Nat.mul_div_cancel _ (by omega), show (n * 4096 + 4095) / 4096 = blocks.length by omega, blocksFrom_eq (by rw [h4]; exact h6)]
    simp only
    rw [if_pos (by omega), List.take_of_length_le (by omega)]
  · have hl : (encryptSectors enc (b * 8) sectors).flatten.length = n * 4096 := by rw [← h7, l1, h4]
    rw [h7, show b * 4096 / 512 = b * 8 by omega, h3]
    exact c26_roundtrip 512 (by omega) enc dec hc sectors h2 (b * 8) (by omega) _ (by rw [hl, List.length_replicate]) (by rw [List.length_replicate]; omega)

variable {c : Cipher} {vector : Nat → Bool} {image : Image} {k : Container.Opened} {d0 d : Bytes} {records : List Record}

/-- If the container opens, its key bag is the one stored in encrypted form where the superblock says. -/
theorem c51_container_bag {xts : Bytes → Bytes → Bytes → Bytes} (hb : Blocks image) (hk : Container.openRead xts vector image = ok k) (hs : k.superblock = Container.superblockOf d0)
    (hv : Nx.Valid d0) {enc : Bytes → Bytes → Bytes} (hc : TweakableCipher 512 enc (xts (slice d0 72 16))) {cb : List BagEntry} {data : Bytes} (h1 : Nx.keyBagBlock d0 ≠ 0)
    (h2 : Nx.keyBagBlocks d0 ≠ 0) (hn : Nx.keyBagBlocks d0 ≤ 90) (hr : (Nx.keyBagBlock d0 + Nx.keyBagBlocks d0) * 4096 < 2 ^ 63)
    (hd : StoredEncrypted enc image (Nx.keyBagBlock d0) (Nx.keyBagBlocks d0) data) (hcb : ContainerBag data cb) : k.keyBag = some (some (entriesOf cb)) := by
  obtain ⟨_, s, _, _, p⟩ := (Container.openRead_iff hb).1 hk
  have hk := p.keyBag
  rw [← p.superblock, hs] at hk
  obtain ⟨e, r1, r2, r3, r4⟩ := decrypts hc hd hr
  obtain ⟨hck, head, size, reserved, rest, b1, b2, b3, b4, b5, b6, b7⟩ := hcb
  have hl : data.length ≤ 4 * 92681 + 8 := by rw [r3]; omega
  have hm : data.length % 4 = 0 := by rw [r3]; omega
  have h32 : 32 ≤ data.length := by rw [r3]; omega
  have ht : data.take 32 = head ++ toLE 4 0x6b657973 ++ toLE 4 0 := by
    rw [b7]
    unfold bagBlock
    exact List.take_left' (by simp [b1])
  have hbag : readContainerBag data = ok (some (entriesOf cb)) := by
    refine (c16_container_bag_iff data h32 (by omega) _).2 ⟨?_, ?_, (c01_object_accept_iff data (by omega) hm hl).1.2 hck, size, reserved, cb, rest, b2, b3, b4, b5, b6, by rw [ht]; exact b7, rfl⟩
    · rw [b7]
      unfold bagBlock
      simp only [List.append_assoc]
      exact rdLE_mid head _ 4 0x6b657973 24 b1 (by omega)
    · rw [b7]
      unfold bagBlock
      rw [List.append_assoc]
      exact rdLE_mid (head ++ toLE 4 0x6b657973) _ 4 0 28 (by simp [b1]) (by omega)
  unfold readKeyBag at hk
  have e1 : (Container.superblockOf d0).keyBagBlock = Nx.keyBagBlock d0 := rfl
  have e2 : (Container.superblockOf d0).keyBagBlocks = Nx.keyBagBlocks d0 := rfl
  have e3 : (Container.superblockOf d0).blockSize = 4096 := hv.blockSize
  have e4 : (Container.superblockOf d0).identifier = slice d0 72 16 := rfl
  rw [e1, e2, e3, e4, if_pos ⟨by omega, by omega⟩] at hk
  simp only at hk
  rw [Nat.mod_eq_of_lt (fits hr).1, Nat.mod_eq_of_lt (fits hr).2.1, require_true (by omega), ok_bind, r1, ok_bind, r4,
    ok_bind, hbag, ok_bind] at hk
  exact (Res.ok.inj hk).symm

/-- the key bag of an encrypted volume, as stored -/
theorem readsVolumeBag {enc : Bytes → Bytes → Bytes} {uuid : Bytes} (hc : TweakableCipher 512 enc (c.xts (uuid, uuid))) {b n : Nat} {data : Bytes} {vb : List BagEntry} (hn0 : n ≠ 0)
    (hn : n ≤ 32768) (hr : (b + n) * 4096 < 2 ^ 63) (hd : StoredEncrypted enc image b n data) (hvb : VolumeBag data vb) : readVolumeKeyBag c image uuid b n = ok (entriesOf vb) := by
  obtain ⟨e, r1, r2, r3, r4⟩ := decrypts hc hd hr
  obtain ⟨head, size, reserved, rest, b1, b2, b3, b4, b5, b6, b7⟩ := hvb
  unfold readVolumeKeyBag
  simp only
  rw [Nat.mod_eq_of_lt (fits hr).1, Nat.mod_eq_of_lt (fits hr).2.1, require_true (by omega), ok_bind, r1, ok_bind, r4, ok_bind]
  exact (c16_volume_bag_iff data _).2 ⟨by omega, head, size, reserved, vb, rest, b1, b2, b3, b4, b5, b6, b7, rfl⟩

theorem extent_of {cb : List BagEntry} {uuid : Bytes} {b n : Nat} (h : BagExtent cb uuid b n) (hb : b < 2 ^ 64) (hn : n < 2 ^ 64) :
    getVolumeBagExtent uuid (entriesOf cb) = ok (some (b, n)) := by
  obtain ⟨pre, e, post, h1, h2, h3, h4, h5⟩ := h
  have : entriesOf cb = entriesOf pre ++ { identifier := uuid, type := 3, data := toLE 8 b ++ toLE 8 n } :: entriesOf post := by
    rw [h1, ← h3, ← h2, ← h4]
    simp [entriesOf]
  rw [this]
  refine c16_extent_first uuid _ _ b n hb hn ?_
  intro x hx
  obtain ⟨y, hy, y1, y2, _⟩ := mem_entriesOf.1 hx
  rw [← y1, ← y2]
  exact h5 y hy

/-- what the volume key bag and the blocks of the file system tree of an encrypted volume look like in the image: they are encrypted with the identifier of the volume and with `keys` -/
structure EncryptedVolume (encX : Bytes × Bytes → Bytes → Bytes → Bytes) (image : Nat → Option Bytes) (cb vb : List BagEntry) (d : Bytes) : Prop where
  encrypted : ¬ Apsb.unencrypted d
  bag : ∃ b n data, BagExtent cb (Apsb.uuid d) b n ∧ b ≠ 0 ∧ n ≠ 0 ∧ n ≤ 32768 ∧ (b + n) * 4096 < 2 ^ 63 ∧
    StoredEncrypted (encX (Apsb.uuid d, Apsb.uuid d)) image b n data ∧ VolumeBag data vb

/-- An encrypted volume opens, locked and with the key bag that is stored for it. -/
theorem c51_opens {encX : Bytes × Bytes → Bytes → Bytes → Bytes} (hX : ∀ ks, TweakableCipher 512 (encX ks) (c.xts ks)) (hb : Blocks image)
    (hs : k.superblock = Container.superblockOf d0) (hv : Nx.Valid d0) (hvec : vector k.size = true)
    (ht : OmTree (containerBlocks image k.size) k.tree records) {i : Nat} (hi : i < numberOfVolumes k) (h0 : Nx.volume d0 i ≠ 0) {root : Nat} {vs : List SnapValue}
    (hr : ∀ r, Newest records (Nx.volume d0 i) (objectXid d0) r → StoredVolume image (field r.2 8 8) d root) (hx : HasVersion records (Nx.volume d0 i) (objectXid d0))
    (hsn : HasSnapshots (containerBlocks image k.size) root d vs) {cb vb : List BagEntry} (hkb : k.keyBag = some (some (entriesOf cb))) (he : EncryptedVolume encX image cb vb d) :
    ∃ v, volumeByIndex c vector image k i = ok v ∧ Reports v d ∧ numberOfSnapshots v = vs.length ∧ v.snapshots.map (·.name) = vs.map (·.name) ∧ v.tree = root ∧
      v.superblock = VolumeOpen.superblockOf d ∧
      v.state = { uuid := Apsb.uuid d, containerBag := entriesOf cb, keyBag := some (entriesOf vb), isLocked := true } := by
  unfold volumeByIndex
  rw [fetch_eq hb]
  rcases c29_slot hs hv ht hi h0 with ⟨hn, _⟩ | ⟨r, hr', hoff⟩
  · exact absurd hx hn
  obtain ⟨h1, h2, h3, ⟨h4, h5, o, h6, h7, h8⟩, h9, h10⟩ := hr r hr'
  obtain ⟨b, n, data, x1, x2, x3, x4, x5, x6, x7⟩ := he.bag
  have hst : Volume.openRead (some (false, entriesOf cb)) (Apsb.flags d) (Apsb.uuid d) (readVolumeKeyBag c image (Apsb.uuid d)) =
      ok { uuid := Apsb.uuid d, containerBag := entriesOf cb, keyBag := some (entriesOf vb), isLocked := true } := by
    unfold Volume.openRead
    have := he.encrypted
    unfold Apsb.unencrypted at this
    simp only
    rw [if_pos (by omega), extent_of x1 (fits x5).2.2.1 (fits x5).2.2.2, ok_bind]
    simp only
    rw [require_true (by omega), ok_bind, readsVolumeBag (hX _) x3 x4 x5 x6 x7, ok_bind]
  rw [hoff, ok_bind, Nat.mod_eq_of_lt (wide h2)]
  refine ⟨⟨VolumeOpen.superblockOf d, root, vs.map (fun v => { superblock := v.superblock, name := v.name }), _⟩, openRead_iff.2 ⟨d, o.take 88, ?_, h3, rfl, hvec, h4, ?_, ?_, h9,
    (by rw [hkb]; exact hst), readSnapshots_ok hb hsn, h10⟩, reports_of h3 rfl, by simp [numberOfSnapshots], by simp, rfl, rfl, rfl⟩
  · rw [readAt_block h1 h3.size (Nat.le_refl _) (by omega) h2, List.take_of_length_le (by rw [h3.size]; omega)]
  · rw [Nat.mod_eq_of_lt (wide h5)]
    exact readAt_block h6 h7 (by omega) (by omega) h5
  · exact ⟨by rw [List.length_take]; omega, by rw [← h8.type]; exact field_take o 88 24 4 (by omega), by rw [field_take o 88 28 4 (by omega)]; exact h8.subtype,
      by rw [field_take o 88 48 8 (by omega)]; exact h8.tree⟩

/-- A volume whose key bag is said to be at block 0 or to have no blocks does not open: it is not taken for one without a key bag, which any attempt unlocks. -/
theorem c51_empty_extent {cb : List BagEntry} {flags : Nat} (hf : flags % 2 = 0) {uuid : Bytes} {b n : Nat} (h : BagExtent cb uuid b n) (hb : b < 2 ^ 64) (hn : n < 2 ^ 64)
    (h0 : b = 0 ∨ n = 0) (locked : Bool) (readBag : Nat → Nat → Res (List KeyBag.Entry)) : Volume.openRead (some (locked, entriesOf cb)) flags uuid readBag = err := by
  unfold Volume.openRead
  dsimp only
  rw [if_pos hf, extent_of h hb hn, ok_bind]
  dsimp only
  rw [require_false (by omega)]
  rfl

example : BagExtent [{ identifier := List.replicate 16 1, type := 3, reserved := List.replicate 4 0, data := toLE 8 0 ++ toLE 8 1, pad := List.replicate 8 0 }] (List.replicate 16 1) 0 1 := ⟨[], _, [], rfl, rfl, rfl, rfl, by simp⟩

/-! ## The file system tree of an unlocked volume -/

/-- what the fetch function finds -/
def found (fetch : Nat → Res Bytes) (b : Nat) : Option Bytes :=
  match fetch b with
  | ok d => some d
  | _ => none

theorem fetchOf_found {fetch : Nat → Res Bytes} (h : ∀ b, Safe (fetch b)) : fetch = fetchOf (found fetch) := by
  funext b
  unfold fetchOf found
  have := h b
  cases e : fetch b with
  | ok d => rfl
  | err => rfl
  | ub => exact absurd e this

theorem isTree_mono {sub sub' : Bytes → TNode → Prop} (h : ∀ v t, sub v t → sub' v t) : ∀ {depth : Nat} {t : TNode} {rs : List Record}, IsTree sub depth t rs → IsTree sub' depth t rs
  | 0, _, _, ht => ht
  | depth + 1, t, rs, ht => by
    rcases ht with ht | ⟨h1, cs, h2, h3, h4, h5⟩
    · exact .inl ht
    · exact .inr ⟨h1, cs, h2, h3, h4, fun c hc => ⟨h _ _ (h5 c hc).1, isTree_mono h (h5 c hc).2.1, (h5 c hc).2.2⟩⟩

/-- a tree in some blocks is one in more blocks -/
theorem fsHolds_mono {s : Storage} {fs : Nat → Option Bytes} (h : ∀ b d, s.fsImage b = some d → fs b = some d) {xid : Nat} {files : List Record} (hf : FsHolds s xid files) :
    FsHolds { s with fsImage := fs } xid files := by
  obtain ⟨⟨mappings, h1, d, h2, h3⟩, h4, h5⟩ := hf
  refine ⟨⟨mappings, h1, d, { h2 with stored := h _ _ h2.stored }, isTree_mono ?_ h3⟩, h4, h5⟩
  rintro v t ⟨g1, g2, r, g3, e, g4, g5⟩
  exact ⟨g1, g2, r, g3, e, { g4 with stored := h _ _ g4.stored }, g5⟩

/-- With the keys set, blocks that are stored in encrypted form are read as they were before encryption. -/
theorem fsFetch_decrypts {enc : Bytes → Bytes → Bytes} {keys : Bytes × Bytes} (hc : TweakableCipher 512 enc (c.xts keys)) {size b : Nat} (hb : b * 4096 < size) (h31 : b < 2 ^ 31) {d : Bytes}
    (h : StoredEncrypted enc image b 1 d) : fsFetch c (some (some keys)) image size b = ok d := by
  have hlt : (b + 1) * 4096 < 2 ^ 63 := fits_one h31
  have h64 := (fits hlt).1
  obtain ⟨e, r1, r2, r3, r4⟩ := decrypts hc h hlt
  unfold fsFetch fetch
  rw [if_pos hb]
  rw [Nat.one_mul] at r1 r2 r4
  rw [r1, ok_bind]
  simp only
  unfold Crypto.readDataBlock
  rw [require_true (by decide), ok_bind, r2]
  simp only
  rw [Nat.mod_eq_of_lt h64]
  exact r4

/-- the storage of an encrypted volume: the object map is not encrypted -/
def encryptedStorage (image : Image) (plain : Nat → Option Bytes) (size root fsRoot : Nat) : Storage :=
  { omImage := containerBlocks image size, omRoot := root, fsImage := plain, fsRoot := fsRoot }

/-- The functions for files of a volume with keys use the file system tree that is stored in encrypted form. -/
theorem trees_of_keys {encX : Bytes × Bytes → Bytes → Bytes → Bytes} (hX : ∀ ks, TweakableCipher 512 (encX ks) (c.xts ks)) (hb : Blocks image) {v : VolumeOpen.Opened} {s : Volume.State}
    {es : List KeyBag.Entry} {keys : Bytes × Bytes} (hs : s.keyBag = some es) (hk : s.keys = some keys) (hv : v.superblock = VolumeOpen.superblockOf d) {mappings files : List Record}
    (hm : OmTree (containerBlocks image k.size) v.tree mappings) (h0 : Apsb.fsRoot d ≠ 0) (hrx : HasVersion mappings (Apsb.fsRoot d) (objectXid d)) {plain : Nat → Option Bytes}
    (hp : EncryptedBlocks (encX keys) image plain) (hr : ∀ b d, plain b = some d → b * 4096 < k.size ∧ b < 2 ^ 31)
    (hfs : ∀ r, Newest mappings (Apsb.fsRoot d) (objectXid d) r → FsHolds (encryptedStorage image plain k.size v.tree (field r.2 8 8)) (objectXid d) files) :
    ∃ t, trees c image k v s = ok (some (volumeOf t)) ∧ FsHolds t (objectXid d) files := by
  unfold trees context
  have e1 : v.superblock.fsRoot = Apsb.fsRoot d := by rw [hv]; rfl
  have e2 : v.superblock.transaction = objectXid d := by rw [hv]; rfl
  have hsafe : ∀ b, Safe (fsFetch c (some (some keys)) image k.size b) := by
    intro b
    unfold fsFetch
    exact safe_bind (safe_fetch _ _ _) fun e he => safe_readDataBlock (fun f hf => by cases hf; exact (hX keys).decLen) (fetch_length he) _ _
  rw [hs, hk, Option.map_some, fetch_eq hb, e1, e2, fetchOf_found hsafe]
  rcases c18_lookup _ _ _ hm (Apsb.fsRoot d) (objectXid d) h0 with ⟨h1, _⟩ | ⟨r, desc, h1, h2, _, _, _, _, h3⟩
  · exact absurd hrx h1
  rw [h2, ok_bind]
  dsimp only
  rw [h3]
  exact ⟨_, rfl, fsHolds_mono (fs := found (fsFetch c (some (some keys)) image k.size)) (fun b e he => by
    have := hr b e he
    unfold found
    rw [fsFetch_decrypts (hX keys) this.1 this.2 (hp b e he)]) (hfs r h1)⟩

/-- From an image to the file system tree of an encrypted volume: the volume opens locked; after any calls with passwords among `S`, unlocking succeeds if a password that is set is
correct; and whenever the volume reports not to be locked, it has the keys and its file system tree is the one that is stored in encrypted form. -/
theorem c51_reach_partial {p : Prims} {enc : Bytes → Bytes → Bytes} (hp : PrimsOk p enc) {encX : Bytes × Bytes → Bytes → Bytes → Bytes} (hX : ∀ ks, TweakableCipher 512 (encX ks) (c.xts ks))
    (hb : Blocks image) (hs : k.superblock = Container.superblockOf d0) (hv : Nx.Valid d0) (hvec : vector k.size = true)
    (ht : OmTree (containerBlocks image k.size) k.tree records) {i : Nat} (hi : i < numberOfVolumes k) (h0 : Nx.volume d0 i ≠ 0) {root : Nat} {vs : List SnapValue}
    (hr : ∀ r, Newest records (Nx.volume d0 i) (objectXid d0) r → StoredVolume image (field r.2 8 8) d root) (hx : HasVersion records (Nx.volume d0 i) (objectXid d0))
    (hsn : HasSnapshots (containerBlocks image k.size) root d vs) {cb vb : List BagEntry} (hkb : k.keyBag = some (some (entriesOf cb))) (he : EncryptedVolume encX image cb vb d)
    {S : Bytes → Prop} {vk : Bytes} {keys : Bytes × Bytes} (hsec : Secrets p.prf enc p.sha vb cb (Apsb.uuid d) S vk keys) {mappings files : List Record}
    (hm : OmTree (containerBlocks image k.size) root mappings) (hrx : HasVersion mappings (Apsb.fsRoot d) (objectXid d)) {plain : Nat → Option Bytes}
    (hpl : EncryptedBlocks (encX keys) image plain) (hrange : ∀ b d, plain b = some d → b * 4096 < k.size ∧ b < 2 ^ 31)
    (hfs : ∀ r, Newest mappings (Apsb.fsRoot d) (objectXid d) r → FsHolds (encryptedStorage image plain k.size root (field r.2 8 8)) (objectXid d) files) :
    ∃ v, volumeByIndex c vector image k i = ok v ∧ v.state.isLocked = true ∧ v.superblock = VolumeOpen.superblockOf d ∧
      ∀ ops, (∀ o ∈ ops, OpOk o) → (∀ q ∈ secretsOf ops, S q) → ∀ s, run p v.state ops = ok s →
        (∀ pw, s.user = some pw ∨ s.recovery = some pw → IsSecret p.prf enc vb pw → ∀ bk bm : Bytes, bk.length = 32 → bm.length = 32 →
          ∃ s', run p v.state (ops ++ [.unlock bk bm]) = ok s' ∧ s'.isLocked = false) ∧
        (s.isLocked = false → s.keyBag = some (entriesOf vb) ∧ s.keys = some keys ∧ ∃ t, trees c image k v s = ok (some (volumeOf t)) ∧ FsHolds t (objectXid d) files) := by
  obtain ⟨v, h1, _, _, _, h5, h6, h7⟩ := c51_opens (c := c) hX hb hs hv hvec ht hi h0 hr hx hsn hkb he
  subst h5
  have hf0 : Apsb.fsRoot d ≠ 0 := by
    rcases c29_slot hs hv ht hi h0 with ⟨hn, _⟩ | ⟨r, hr', _⟩
    · exact absurd hx hn
    · exact (hr r hr').fsRoot
  refine ⟨v, h1, by rw [h7], h6, fun ops hops hS s hrun => ?_⟩
  have inv0 : Inv p enc (entriesOf vb) (entriesOf cb) (Apsb.uuid d) [] v.state := by
    rw [h7]
    exact ⟨rfl, rfl, rfl, fun _ h => (by cases h), fun _ h => (by cases h), fun h => (by cases h)⟩
  obtain ⟨ss, hss, inv⟩ := inv_run hp ops inv0 hops hrun
  have hss : ∀ x ∈ ss, S x := fun x hx => hS x ((hss x hx).resolve_left (by simp))
  refine ⟨fun pw hpw hsecret bk bm hbk hbm => ?_, fun hl => ?_⟩
  · have := c51_unlock hp hsec inv.bag inv.cbag inv.vid (fun q hq => by
      rcases hq with h | h
      · exact ⟨hss _ (inv.user q h).1, (inv.user q h).2⟩
      · exact ⟨hss _ (inv.recovery q h).1, (inv.recovery q h).2⟩) hpw hsecret bk bm hbk hbm
    have hrun2 : ∀ (os : List Op) (a b : State), run p a os = ok b → ∀ o, run p a (os ++ [o]) = step p b o := by
      intro os
      induction os with
      | nil =>
        intro a b h o
        cases h
        show (step p a o >>= fun s => ok s) = step p a o
        cases step p a o <;> rfl
      | cons x os ih =>
        intro a b h o
        obtain ⟨a', ha, h⟩ := bind_eq_ok.1 h
        show (step p a x >>= fun s => run p s (os ++ [o])) = _
        rw [ha, ok_bind]
        exact ih a' b h o
    rw [hrun2 _ _ _ hrun]
    unfold step
    simp only
    by_cases hl : s.isLocked = true
    · rw [if_pos hl, this]
      exact ⟨_, rfl, rfl⟩
    · rw [if_neg hl]
      exact ⟨_, rfl, by simpa using hl⟩
  · obtain ⟨pw, hpw, ks, hks, hop⟩ := inv.locked hl
    rw [opens_keys hsec (hss pw hpw) hop] at hks
    exact ⟨inv.bag, hks, trees_of_keys hX hb inv.bag hks h6 hm hf0 hrx hpl hrange hfs⟩

/-- From an image to the entries of a directory of an encrypted volume: the volume opens locked; after any calls with passwords among `S`, unlocking succeeds if a password that is set is
correct; and whenever the volume reports not to be locked, every directory of its file system tree lists the directory records that the tree has before encryption.
What is missing: passwords that open a KEK by accident, see `S`, and a snapshot metadata tree of more than one level, see `c50_snapshot_tree`. -/
theorem c51_listing_partial {p : Prims} {enc : Bytes → Bytes → Bytes} (hp : PrimsOk p enc) {encX : Bytes × Bytes → Bytes → Bytes → Bytes} (hX : ∀ ks, TweakableCipher 512 (encX ks) (c.xts ks))
    (hb : Blocks image) (hs : k.superblock = Container.superblockOf d0) (hv : Nx.Valid d0) (hvec : vector k.size = true)
    (ht : OmTree (containerBlocks image k.size) k.tree records) {i : Nat} (hi : i < numberOfVolumes k) (h0 : Nx.volume d0 i ≠ 0) {root : Nat} {vs : List SnapValue}
    (hr : ∀ r, Newest records (Nx.volume d0 i) (objectXid d0) r → StoredVolume image (field r.2 8 8) d root) (hx : HasVersion records (Nx.volume d0 i) (objectXid d0))
    (hsn : HasSnapshots (containerBlocks image k.size) root d vs) {cb vb : List BagEntry} (hkb : k.keyBag = some (some (entriesOf cb))) (he : EncryptedVolume encX image cb vb d)
    {S : Bytes → Prop} {vk : Bytes} {keys : Bytes × Bytes} (hsec : Secrets p.prf enc p.sha vb cb (Apsb.uuid d) S vk keys) {mappings files : List Record}
    (hm : OmTree (containerBlocks image k.size) root mappings) (hrx : HasVersion mappings (Apsb.fsRoot d) (objectXid d)) {plain : Nat → Option Bytes}
    (hpl : EncryptedBlocks (encX keys) image plain) (hrange : ∀ b d, plain b = some d → b * 4096 < k.size ∧ b < 2 ^ 31)
    (hfs : ∀ r, Newest mappings (Apsb.fsRoot d) (objectXid d) r → FsHolds (encryptedStorage image plain k.size root (field r.2 8 8)) (objectXid d) files) :
    ∃ v, volumeByIndex c vector image k i = ok v ∧ v.state.isLocked = true ∧
      ∀ ops, (∀ o ∈ ops, OpOk o) → (∀ q ∈ secretsOf ops, S q) → ∀ s, run p v.state ops = ok s →
        (∀ pw, s.user = some pw ∨ s.recovery = some pw → IsSecret p.prf enc vb pw → ∀ bk bm : Bytes, bk.length = 32 → bm.length = 32 →
          ∃ s', run p v.state (ops ++ [.unlock bk bm]) = ok s' ∧ s'.isLocked = false) ∧
        (s.isLocked = false → ∃ t, trees c image k v s = ok (some t) ∧ ∀ identifier < 2 ^ 60, (∃ r ∈ files, IsOf identifier 3 r) →
          directoryRecords t v.superblock.transaction identifier = readAll Records.readDirectoryRecord (recordsOf files identifier 9)) := by
  obtain ⟨v, h1, h2, h3, h4⟩ := c51_reach_partial (c := c) hp hX hb hs hv hvec ht hi h0 hr hx hsn hkb he hsec hm hrx hpl hrange hfs
  refine ⟨v, h1, h2, fun ops hops hS s hrun => ⟨(h4 ops hops hS s hrun).1, fun hl => ?_⟩⟩
  obtain ⟨_, _, t, h5, h6⟩ := (h4 ops hops hS s hrun).2 hl
  refine ⟨_, h5, fun identifier hid hin => ?_⟩
  rw [h3]
  exact c20_listing _ _ _ h6 identifier hid hin

/-- If the key bag of the container could not be read, an encrypted volume opens locked, and a single attempt to unlock it, without any password, is a success after which its file system
tree is read without decryption. -/
theorem c51_no_container_bag (hb : Blocks image)
    (hs : k.superblock = Container.superblockOf d0) (hv : Nx.Valid d0) (hvec : vector k.size = true)
    (ht : OmTree (containerBlocks image k.size) k.tree records) {i : Nat} (hi : i < numberOfVolumes k) (h0 : Nx.volume d0 i ≠ 0) {root : Nat} {vs : List SnapValue}
    (hr : ∀ r, Newest records (Nx.volume d0 i) (objectXid d0) r → StoredVolume image (field r.2 8 8) d root) (hx : HasVersion records (Nx.volume d0 i) (objectXid d0))
    (hsn : HasSnapshots (containerBlocks image k.size) root d vs) (hkb : k.keyBag = some none) (he : ¬ Apsb.unencrypted d) :
    ∃ v, volumeByIndex c vector image k i = ok v ∧ v.state.isLocked = true ∧ ∀ p bk bm, ∃ s, Volume.unlock p bk bm v.state = ok (s, true) ∧ s.isLocked = false ∧
      VolumeOpen.context s = none := by
  unfold volumeByIndex
  rw [fetch_eq hb]
  rcases c29_slot hs hv ht hi h0 with ⟨hn, _⟩ | ⟨r, hr', hoff⟩
  · exact absurd hx hn
  obtain ⟨h1, h2, h3, ⟨h4, h5, o, h6, h7, h8⟩, h9, h10⟩ := hr r hr'
  have hst : Volume.openRead (some (true, [])) (Apsb.flags d) (Apsb.uuid d) (readVolumeKeyBag c image (Apsb.uuid d)) =
      ok { uuid := Apsb.uuid d, containerBag := [], keyBag := none, isLocked := true } := by
    unfold Volume.openRead
    unfold Apsb.unencrypted at he
    simp only
    rw [if_pos (by omega)]
    rfl
  rw [hoff, ok_bind, Nat.mod_eq_of_lt (wide h2)]
  refine ⟨⟨VolumeOpen.superblockOf d, root, vs.map (fun v => { superblock := v.superblock, name := v.name }), _⟩, openRead_iff.2 ⟨d, o.take 88, ?_, h3, rfl, hvec, h4, ?_, ?_, h9,
    (by rw [hkb]; exact hst), readSnapshots_ok hb hsn, h10⟩, rfl, fun p bk bm => ⟨_, rfl, rfl, rfl⟩⟩
  · rw [readAt_block h1 h3.size (Nat.le_refl _) (by omega) h2, List.take_of_length_le (by rw [h3.size]; omega)]
  · rw [Nat.mod_eq_of_lt (wide h5)]
    exact readAt_block h6 h7 (by omega) (by omega) h5
  · exact ⟨by rw [List.length_take]; omega, by rw [← h8.type]; exact field_take o 88 24 4 (by omega), by rw [field_take o 88 28 4 (by omega)]; exact h8.subtype,
      by rw [field_take o 88 48 8 (by omega)]; exact h8.tree⟩

end Verif.Props
