import Verif.Lemmas.SecretsAgree
/-!
# C86 Passwords and keys are erased

The passwords of a volume and the keys that unlocking computes are overwritten with zeros before their memory is given back, in every history and whatever fails. False
for two buffers: the block of the AES key unwrap keeps the first bytes of the key, and the hash buffer of the password derivation keeps the last hash, which is the derived
key if there is one iteration.
-/
namespace Verif.Props
open Verif Res Spec Secrets

/-- number of blocks that a password has -/
def c86Held (s : Slot) : Nat := if s.block.isSome then 1 else 0

/-- a block is allocated for a new password -/
def c86Allocated (i : Source) : Prop := i.allocates = true ∧ ∃ n, i.measure = ok (some n) ∧ 0 < n ∧ n ≤ 128 * 1024 * 1024 - 1

/-- For every history of setting passwords, with strings that can and cannot be measured or converted and with memory that can and cannot be allocated: every block that was
freed holds zeros only; and freeing the volume afterwards frees both passwords, with zeros only. -/
theorem c86_passwords (cs : List Call) (hc : ∀ i, .setUser i ∈ cs ∨ .setRecovery i ∈ cs → i.Fits) :
    ∃ p f, calls {} cs = ok (p, f) ∧ (∀ b ∈ f, Blank b) ∧
      ∃ p' f', call p .close = ok (p', f') ∧ (∀ b ∈ f', Blank b) ∧ p'.user.block = none ∧ p'.recovery.block = none ∧
        f'.length = c86Held p.user + c86Held p.recovery := by
  obtain ⟨p, f, e, h1, h2, h3⟩ := calls_ok cs hc (p := {}) (fits_none 0) (fits_none 0)
  obtain ⟨p', f', e', _, _, h3', h4⟩ := call_ok h1 h2 .close (fun i h => by rcases h with h | h <;> cases h)
  refine ⟨p, f, e, h3, p', f', e', h3', (h4 rfl).1, (h4 rfl).2, ?_⟩
  unfold call at e'
  obtain ⟨⟨u, fu⟩, eu, e'⟩ := bind_eq_ok.1 e'
  obtain ⟨⟨r, fr⟩, er, e'⟩ := bind_eq_ok.1 e'
  cases e'
  have len : ∀ {s s' : Slot} {l}, clear s = ok (s', l) → l.length = c86Held s := by
    intro s s' l h
    unfold clear at h
    unfold c86Held
    cases hb : s.block with
    | none => rw [hb] at h; cases h; rfl
    | some b =>
      rw [hb] at h
      obtain ⟨_, _, h⟩ := bind_eq_ok.1 h
      cases h
      rfl
  rw [List.length_append, len eu, len er]

/-- No block is lost: what was held and what was allocated is freed or held. After a failure no password is held. -/
theorem c86_replaced (i : Source) (hi : i.Fits) (s : Slot) (hs : s.Fits) :
    ∃ r s' f, set i s = ok (r, s', f) ∧ (∀ b ∈ f, Blank b) ∧ (r = false → s'.block = none) ∧ (r = true → c86Allocated i) ∧
      (c86Allocated i → c86Held s + 1 = f.length + c86Held s') ∧ (¬ c86Allocated i → c86Held s = f.length + c86Held s') := by
  obtain ⟨r, s', f, e, _, h2, h3⟩ := set_ok hi hs
  refine ⟨r, s', f, e, h2, h3, ?_⟩
  unfold Secrets.set at e
  obtain ⟨⟨s1, f1⟩, e1, e⟩ := bind_eq_ok.1 e
  have hf1 : f1.length = c86Held s ∧ s1.block = none := by
    unfold clear at e1
    unfold c86Held
    cases hb : s.block with
    | none => rw [hb] at e1; cases e1; exact ⟨rfl, hb⟩
    | some b =>
      rw [hb] at e1
      obtain ⟨_, _, h⟩ := bind_eq_ok.1 e1
      cases h
      exact ⟨rfl, rfl⟩
  have onE : ∀ {t t' : Slot} {l}, onError t = ok (t', l) → l.length = c86Held t ∧ t'.block = none := by
    intro t t' l h
    unfold onError at h
    unfold c86Held
    cases hb : t.block with
    | none => rw [hb] at h; cases h; exact ⟨rfl, rfl⟩
    | some b =>
      rw [hb] at h
      obtain ⟨_, _, h⟩ := bind_eq_ok.1 h
      cases h
      exact ⟨rfl, rfl⟩
  have none0 : ∀ {t : Slot}, t.block = none → c86Held t = 0 := fun h => by unfold c86Held; rw [h]; rfl
  obtain ⟨m, em, e⟩ := bind_eq_ok.1 e
  cases m with
  | none =>
    obtain ⟨⟨t, l⟩, e2, e⟩ := bind_eq_ok.1 e
    cases e
    have na : ¬ c86Allocated i := fun ⟨_, n, hn, _⟩ => by rw [em] at hn; cases hn
    refine ⟨nofun, fun h => absurd h na, fun _ => ?_⟩
    rw [List.length_append, hf1.1, (onE e2).1, none0 (onE e2).2, none0 hf1.2]
    rfl
  | some n =>
    dsimp only at e
    split at e
    · rename_i hn
      obtain ⟨⟨t, l⟩, e2, e⟩ := bind_eq_ok.1 e
      cases e
      have na : ¬ c86Allocated i := fun ⟨_, n', hn', h⟩ => by rw [em] at hn'; cases hn'; omega
      refine ⟨nofun, fun h => absurd h na, fun _ => ?_⟩
      rw [List.length_append, hf1.1, (onE e2).1, none0 (onE e2).2, none0 (t := ⟨s1.block, n⟩) hf1.2]
      rfl
    rename_i hn
    split at e
    · rename_i ha
      obtain ⟨⟨t, l⟩, e2, e⟩ := bind_eq_ok.1 e
      cases e
      have na : ¬ c86Allocated i := fun ⟨h, _⟩ => by rw [ha] at h; cases h
      refine ⟨nofun, fun h => absurd h na, fun _ => ?_⟩
      rw [List.length_append, hf1.1, (onE e2).1, none0 (onE e2).2, none0 (t := ⟨s1.block, n + 1⟩) hf1.2]
      rfl
    rename_i ha
    have al : c86Allocated i := ⟨by revert ha; cases i.allocates <;> simp, n, em, by omega, by omega⟩
    obtain ⟨⟨g, b⟩, e2, e⟩ := bind_eq_ok.1 e
    dsimp only at e
    split at e
    · obtain ⟨⟨t, l⟩, e3, e⟩ := bind_eq_ok.1 e
      cases e
      refine ⟨nofun, fun _ => ?_, fun h => absurd al h⟩
      rw [List.length_append, hf1.1, (onE e3).1, none0 (onE e3).2]
      rfl
    split at e
    · cases e
      refine ⟨fun _ => al, fun _ => ?_, fun h => absurd al h⟩
      rw [hf1.1]
      rfl
    · cases e

/-- A terminated UTF-8 string with at most its length and end-of-string character is such a source; what is then held is the password that C33 is about. -/
theorem c86_utf8 (mem : Bytes) (length n : Nat) (h : Volume.stringLength mem = ok n) (hl : length ≤ n + 1) (hm : length ≤ mem.length) (a : Bool) (s : Slot) (hs : s.Fits) :
    (utf8Source mem length a).Fits ∧
      ∀ s' f, Secrets.set (utf8Source mem length a) s = ok (true, s', f) → ∃ b, Volume.setUtf8 mem length = ok b ∧ s' = ⟨some b, n + 1⟩ := by
  refine ⟨fits_utf8 h hl hm a, ?_⟩
  intro s' f e
  obtain ⟨n0, f0, e0, _⟩ := clear_ok hs
  have l : ((mem.drop 0).take length).length = length := by simp only [List.length_take, List.length_drop]; omega
  unfold Secrets.set at e
  rw [e0, ok_bind] at e
  unfold utf8Source at e
  dsimp only at e
  rw [h, ok_bind, ok_bind] at e
  dsimp only at e
  split at e
  · obtain ⟨_, _, e⟩ := bind_eq_ok.1 e
    cases e
  rename_i hn
  split at e
  · obtain ⟨_, _, e⟩ := bind_eq_ok.1 e
    cases e
  rw [rdN_le (by omega), ok_bind, l, if_neg (by omega), ok_bind] at e
  dsimp only at e
  rw [if_neg (by decide), if_pos (by simp only [List.length_append, List.length_map, List.length_replicate, l]; omega)] at e
  cases e
  refine ⟨_, ?_, rfl⟩
  unfold Volume.setUtf8
  rw [h, ok_bind, require_true hn, ok_bind, rdN_le (by omega), ok_bind, l, if_neg (by omega),
    if_pos (by simp only [List.length_append, List.length_map, List.length_replicate, l]; omega)]
  rfl

/-- The same for UTF-16 strings, whatever the conversion writes to the block, also if it fails. -/
theorem c86_utf16 (size : Option Nat) (copy : Nat → Bool × List (Option UInt8)) (h : ∀ n, (copy n).2.length = n) (a : Bool) : (utf16Source size copy a).Fits :=
  fits_utf16 h a

example : (utf8Source [112, 119, 0] 2 true).Fits := (c86_utf8 [112, 119, 0] 2 2 rfl (by decide) (by decide) true {} (fits_none 0)).1

example : calls {} [.setUser (utf8Source [112, 119, 0] 2 true), .setUser (utf16Source (some 3) (fun n => (false, List.replicate n (some 120))) true), .setRecovery (utf8Source [114, 0] 1 true)] =
    ok (⟨{}, ⟨some [some 114, some 0], 2⟩⟩, [[some 0, some 0, some 0], [some 0, some 0, some 0, some 0]]) := by decide

/-- a conversion that fails half way: the block is allocated, and freed with zeros -/
example : (utf16Source (some 3) (fun n => (false, List.replicate n (some 120))) true).Fits ∧ c86Allocated (utf16Source (some 3) (fun n => (false, List.replicate n (some 120))) true) ∧
    Secrets.set (utf16Source (some 3) (fun n => (false, List.replicate n (some 120))) true) ⟨some [some 1, some 0], 2⟩ =
      ok (false, {}, [[some 0, some 0], [some 0, some 0, some 0, some 0]]) :=
  ⟨c86_utf16 _ _ (by simp) _, ⟨rfl, 3, rfl, by decide, by decide⟩, by decide⟩

/-- sizes of the buffers: `password_key`, `hash_buffer`, `volume_key` and `volume_master_key` have 32 bytes, `wrapped_kek` has 40 -/
structure C86Stack (t : Stack) : Prop where
  volumeKey : t.volumeKey.length = 32
  masterKey : t.masterKey.length = 32
  user : ∀ i, (t.user i).1.length = 32 ∧ (t.user i).2.length = 40
  recovery : ∀ i, (t.recovery i).1.length = 32 ∧ (t.recovery i).2.length = 40
  master : ∀ i, (t.master i).1.length = 32 ∧ (t.master i).2.length = 40

/-- For every key bag, all passwords and whatever the called functions do and wherever they fail: unlocking stays inside its buffers, and each of them either was not written
to or holds zeros only when its function returns. -/
theorem c86_unlock_partial (w w' : World) (hw : w.Fits) (hw' : w'.Fits) (bag : Option (List KeyBag.Entry)) (hbag : ∀ es, bag = some es → Session.KeysFit 3 es)
    (keys : List KeyBag.Entry) (hkeys : Session.KeysFit 2 keys) (uuid : Bytes) (user recovery : Option Bytes) (t : Stack) (ht : C86Stack t) :
    ∃ r l vk mk, unlock w w' bag keys uuid user recovery t = ok (r, l ++ [⟨t.volumeKey, vk⟩, ⟨t.masterKey, mk⟩]) ∧
      (∀ x ∈ l, x.Clean) ∧ (Left.mk t.volumeKey vk).Clean ∧ (Left.mk t.masterKey mk).Clean := by
  have hE : ∀ {vk mk : Bytes} {l : List Left}, vk.length = 32 → mk.length = 32 → (∀ x ∈ l, x.Clean) →
      ∃ r l' vk' mk', unlockError t vk mk l = ok (r, l' ++ [⟨t.volumeKey, vk'⟩, ⟨t.masterKey, mk'⟩]) ∧
        (∀ x ∈ l', x.Clean) ∧ (Left.mk t.volumeKey vk').Clean ∧ (Left.mk t.masterKey mk').Clean := by
    intro vk mk l h1 h2 hl
    unfold unlockError
    rw [wipe_eq h2, ok_bind, wipe_eq h1, ok_bind]
    exact ⟨_, _, _, _, rfl, hl, clean_wiped ht.1, clean_wiped ht.2⟩
  unfold unlock
  cases bag with
  | none => exact ⟨_, [], _, _, rfl, nofun, clean_same _, clean_same _⟩
  | some es =>
    obtain ⟨r, vk, l, e, l1, s1, c1⟩ := good_volumeKey hw user recovery ht.3 ht.4 es (hbag es rfl) 0 t.volumeKey ht.1
    dsimp only
    rw [e, ok_bind]
    rcases r with _ | _ | _
    · exact hE (l1.trans ht.1) ht.2 c1
    · exact ⟨_, _, _, _, rfl, c1, Or.inl (s1 rfl), clean_same _⟩
    · obtain ⟨r', mk, m, e', l2, s2, c2⟩ := good_masterKey hw' uuid vk ht.5 keys hkeys 0 t.masterKey ht.2
      dsimp only
      rw [e', ok_bind]
      dsimp only
      split
      · exact hE (l1.trans ht.1) (l2.trans ht.2) (clean_append c1 c2)
      rw [wipe_eq (l1.trans ht.1), ok_bind]
      split
      · exact hE (by simp) (l2.trans ht.2) (clean_append c1 c2)
      rw [wipe_eq (l2.trans ht.2), ok_bind]
      exact ⟨_, _, _, _, rfl, clean_append c1 c2, clean_wiped ht.1, clean_wiped ht.2⟩

/-- The model with buffers is about the same unlocking as C32: with the same functions it gives the same result. -/
theorem c86_unlock_agrees {enc : Bytes → Bytes → Bytes} (p : KeyBag.Prims) (hp : KeyBag.PrimsOk p enc) (s : Volume.State) (hu : Session.Short s.user)
    (hr : Session.Short s.recovery) (t : Stack) (ht : C86Stack t) :
    (∀ s' b, Volume.unlock p t.volumeKey t.masterKey s = ok (s', b) →
      ∃ l, unlock (ofPrims p) (ofPrims p) s.keyBag s.containerBag s.uuid s.user s.recovery t = ok (some b, l)) ∧
    (Volume.unlock p t.volumeKey t.masterKey s = err →
      ∃ l, unlock (ofPrims p) (ofPrims p) s.keyBag s.containerBag s.uuid s.user s.recovery t = ok (none, l)) := by
  suffices h : match Volume.unlock p t.volumeKey t.masterKey s with
      | .ok (_, b) => ∃ l, unlock (ofPrims p) (ofPrims p) s.keyBag s.containerBag s.uuid s.user s.recovery t = ok (some b, l)
      | .err => ∃ l, unlock (ofPrims p) (ofPrims p) s.keyBag s.containerBag s.uuid s.user s.recovery t = ok (none, l)
      | .ub => True by
    constructor
    · intro s' b e
      rw [e] at h
      exact h
    · intro e
      rw [e] at h
      exact h
  unfold Volume.unlock unlock
  cases s.keyBag with
  | none => exact ⟨_, rfl⟩
  | some es =>
    dsimp only
    have a1 := agrees_volumeKey hp hu hr ht.3 ht.4 ht.1 es 0
    have hE : ∀ {vk mk : Bytes} {l : List Left}, vk.length = 32 → mk.length = 32 → ∃ l', unlockError t vk mk l = ok (none, l') := by
      intro vk mk l h1 h2
      unfold unlockError
      rw [wipe_eq h2, ok_bind, wipe_eq h1, ok_bind]
      exact ⟨_, rfl⟩
    have len : ∀ {r vk l}, volumeKey (ofPrims p) s.user s.recovery t.user t.recovery 0 t.volumeKey es = ok (r, vk, l) → vk.length = 32 := by
      intro r vk l e
      exact volumeKey_length (ofPrims_fits p) s.user s.recovery ht.3 ht.4 es 0 t.volumeKey ht.1 e
    generalize KeyBag.getVolumeKey p s.user s.recovery t.volumeKey es = A at a1 ⊢
    generalize volumeKey (ofPrims p) s.user s.recovery t.user t.recovery 0 t.volumeKey es = B at a1 len ⊢
    rcases A with (_ | vk) | _ | _
    · obtain ⟨_, l, e⟩ := a1
      rw [e]
      exact ⟨_, rfl⟩
    · obtain ⟨l, e⟩ := a1
      have lvk := len e
      rw [e, ok_bind, ok_bind]
      dsimp only
      have a2 := agrees_masterKey hp s.uuid lvk ht.5 ht.2 s.containerBag 0
      have len2 : ∀ {r mk l}, masterKey (ofPrims p) s.uuid vk t.master 0 t.masterKey s.containerBag = ok (r, mk, l) → mk.length = 32 :=
        fun e => masterKey_length (ofPrims_fits p) s.uuid vk ht.5 s.containerBag 0 t.masterKey ht.2 e
      generalize KeyBag.getMasterKey p s.uuid vk t.masterKey s.containerBag = A at a2 ⊢
      generalize masterKey (ofPrims p) s.uuid vk t.master 0 t.masterKey s.containerBag = B at a2 len2 ⊢
      rcases A with (_ | mk) | _ | _
      · obtain ⟨_, m, e2⟩ := a2
        rw [e2]
        exact hE lvk (len2 e2)
      · obtain ⟨m, e2⟩ := a2
        have lmk := len2 e2
        rw [e2, ok_bind, ok_bind]
        dsimp only
        rw [rdN_le (by omega), ok_bind, rdN_le (by omega), ok_bind, if_neg (by decide), wipe_eq lvk, ok_bind, if_neg (show ¬ (ofPrims p).setKeys mk = false from nofun),
          wipe_eq lmk, ok_bind]
        exact ⟨_, rfl⟩
      · obtain ⟨_, m, e2⟩ := a2
        rw [e2]
        exact hE lvk (len2 e2)
      · trivial
    · obtain ⟨vk, l, e⟩ := a1
      rw [e]
      exact hE (len e) ht.2
    · trivial

/-- a key of the example, wrapped by a cipher that changes nothing -/
def c86Kek : KekFields where
  hmac := List.replicate 32 1
  hmacSalt := List.replicate 8 2
  uuid := List.replicate 16 3
  method := 2
  flags := [0, 0, 0, 0]
  wrapped := List.replicate 40 4
  iterations := [1]
  salt := List.replicate 16 5

/-- functions that all write something to their buffer; keys are set or not -/
def c86World (sets : Bool) : World where
  pbkdf2 _ _ n b := (true, List.replicate (min n b.length) 9 ++ b.drop n)
  unwrap _ n _ b := (true, (KeyBag.kekIv ++ List.replicate 32 8).take (min n b.length) ++ List.replicate (b.length - min (min n b.length) 40) 6)
  sha _ b := (true, List.replicate b.length 7)
  setKeys _ := sets
  makes _ := true
  frees _ := true

/-- memory full of other data -/
def c86Stack : Stack := ⟨List.replicate 32 11, List.replicate 32 12, fun _ => (List.replicate 32 13, List.replicate 40 14), fun _ => (List.replicate 32 15, List.replicate 40 16),
  fun _ => (List.replicate 32 17, List.replicate 40 18)⟩

theorem c86World_fits (b : Bool) : (c86World b).Fits := by
  constructor
  · intro k pw n b
    simp only [c86World, List.length_append, List.length_replicate, List.length_drop]
    omega
  · intro k n d b
    simp only [c86World, List.length_append, List.length_replicate, List.length_take, KeyBag.kekIv, List.length_cons, List.length_nil]
    omega
  · intro d b
    simp only [c86World, List.length_replicate]

/-- the example satisfies the hypotheses: key bags with a key each, which unlocks -/
theorem c86_keys (type : Nat) : Session.KeysFit type [⟨List.replicate 16 3, type, c86Kek.encode⟩] := by
  intro e he _
  rw [List.mem_singleton.1 he]
  have := KeyBag.readKek_encode c86Kek (by constructor <;> decide) []
  rw [List.append_nil] at this
  rw [this]
  nofun

example (b : Bool) : ∃ r l vk mk, unlock (c86World b) (c86World b) (some [⟨List.replicate 16 3, 3, c86Kek.encode⟩]) [⟨List.replicate 16 3, 2, c86Kek.encode⟩] (List.replicate 16 3)
      (some [112]) none c86Stack = ok (r, l ++ [⟨c86Stack.volumeKey, vk⟩, ⟨c86Stack.masterKey, mk⟩]) ∧
      (∀ x ∈ l, x.Clean) ∧ (Left.mk c86Stack.volumeKey vk).Clean ∧ (Left.mk c86Stack.masterKey mk).Clean :=
  c86_unlock_partial _ _ (c86World_fits b) (c86World_fits b) _ (fun es h => by cases h; exact c86_keys 3) _ (c86_keys 2) _ _ _ c86Stack
    (by constructor <;> simp [c86Stack])

/-- in it keys are found, and the volume is unlocked if they can be set -/
example : (match unlock (c86World true) (c86World true) (some [⟨List.replicate 16 3, 3, c86Kek.encode⟩]) [⟨List.replicate 16 3, 2, c86Kek.encode⟩] (List.replicate 16 3)
      (some [112]) none c86Stack with | .ok (r, l) => r == some true && l.length == 6 | _ => false) = true := by decide +kernel

/-- the volume of C32 with a password -/
def c86State : Volume.State := { exState with user := some [1, 2] }

/-- it is unlocked, in the model without buffers and so in the model with them -/
example : ∃ l, unlock (ofPrims exPrims) (ofPrims exPrims) c86State.keyBag c86State.containerBag c86State.uuid c86State.user c86State.recovery c86Stack = ok (some true, l) := by
  have e : ∃ s', Volume.unlock exPrims c86Stack.volumeKey c86Stack.masterKey c86State = ok (s', true) :=
    ⟨{ c86State with isLocked := false, keys := some (List.replicate 16 8, List.replicate 16 8) }, by decide +kernel⟩
  obtain ⟨s', e⟩ := e
  exact (c86_unlock_agrees exPrims exPrims_ok c86State (fun pw h => by cases h; simp) nofun c86Stack (by constructor <;> simp [c86Stack])).1 s' true e

/-- What is missing: the key unwrap does not clear its block. Whenever a key is unwrapped, the block holds the first eight bytes of it when the function returns. -/
theorem c86_unwrap_left (dec : Bytes → Bytes → Bytes) (hd : ∀ k d, (dec k d).length = 16) (key : Bytes) (bits : Nat) (w buf b left : Bytes)
    (h : Crypto.keyUnwrap dec key bits w buf = ok b) :
    ∃ l, Secrets.keyUnwrap dec key bits w buf left = ok (b, l) ∧ (l.drop 8).take 8 = (b.drop 8).take 8 := keyUnwrap_shows hd left h

/-- So it is not clean, for a key of ones. -/
example : ∃ l : Bytes × Bytes, Secrets.keyUnwrap (fun _ d => d) (List.replicate 16 7) 128 (List.replicate 8 0xa6 ++ List.replicate 16 1) (List.replicate 24 0) (List.replicate 16 0) =
    ok l ∧ ¬ (Left.mk (List.replicate 16 0) l.2).Clean := ⟨_, rfl, by decide⟩

/-- What is missing: the password derivation does not clear its hash buffer. It holds the last hash of the chain, and the derived key itself if there is one iteration. -/
theorem c86_derivation_left (prf : Bytes → Bytes → Bytes) (hp : ∀ p d, (prf p d).length = 32) (password salt out : Bytes) (hpw : password.length ≤ 2 ^ 63 - 1)
    (hs : salt.length + 4 ≤ 128 * 1024 * 1024) (ho : 1 ≤ out.length ∧ out.length ≤ 32) :
    (∀ c, 1 ≤ c → hashLeft prf password salt c = Spec.pbkdf2U prf password salt 1 (c - 1)) ∧
      Crypto.pbkdf2 prf password salt 1 out = ok ((hashLeft prf password salt 1).take out.length) := by
  constructor
  · intro c hc
    unfold hashLeft
    have := hashIterations_eq prf password salt (c - 1) 0
    rw [Nat.zero_add] at this
    exact this
  · rw [c14_pbkdf2 prf hp password salt out 1 hpw hs (by omega) (by omega)]
    unfold Spec.pbkdf2
    rw [show (out.length + 31) / 32 = 1 by omega]
    show ok ((Spec.pbkdf2F prf password salt 1 0 ++ []).take out.length) = _
    rw [List.append_nil]
    rfl

example : Crypto.pbkdf2 (fun p d => ((p ++ d).take 32) ++ List.replicate (32 - (p ++ d).length) 0) [112, 119] [1, 2, 3] 1 [0, 0, 0, 0] =
    ok ((hashLeft (fun p d => ((p ++ d).take 32) ++ List.replicate (32 - (p ++ d).length) 0) [112, 119] [1, 2, 3] 1).take 4) :=
  (c86_derivation_left _ (by intro p d; simp only [List.length_append, List.length_take, List.length_replicate]; omega) [112, 119] [1, 2, 3] [0, 0, 0, 0] (by decide) (by decide)
    (by decide)).2

end Verif.Props
