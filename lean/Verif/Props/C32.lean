import Verif.Lemmas.Volume
/-!
# C32 A locked volume is only unlocked by a correct secret
-/
namespace Verif.Props
open Verif Res Spec KeyBag

/-- The password `pw` opens the volume with the given key bags and yields the two cipher keys: some entry (type 3) of the volume key bag wraps
a volume key under the key derived from the password, and some entry (type 2) of the container key bag for this volume wraps, with the default integrity
value, the volume master key under the volume key. `buf` is the buffer of the volume key. -/
def Opens (p : Prims) (enc : Bytes → Bytes → Bytes) (volumeBag containerBag : List Entry) (uuid pw : Bytes) (keys : Bytes × Bytes) : Prop :=
  ∃ e ∈ volumeBag, e.type = 3 ∧ ∃ k, readKek e.data e.data.length = ok k ∧ ∃ n vk, PwSize k.method n ∧ vk.length = n ∧
    WrapsKey enc (Spec.pbkdf2 p.prf pw k.salt (k.iterations % 2 ^ 32) n) (k.wrapped.take (n + 8)) vk ∧
  ∃ e' ∈ containerBag, e'.type = 2 ∧ e'.identifier = uuid ∧ ∃ k', readKek e'.data e'.data.length = ok k' ∧ ∃ (n' : Nat) (mk buf : Bytes), KeySize k'.method n' ∧ mk.length = n' ∧
    buf.take n = vk ∧ WrapsKey enc (buf.take n') (k'.wrapped.take (n' + 8)) mk ∧
    keys = if n' = 32 then (mk.take 16, mk.drop 16) else (mk, (p.sha (mk ++ k'.identifier)).take 16)

theorem getVolumeKey_some {p : Prims} {enc : Bytes → Bytes → Bytes} (hp : PrimsOk p enc) {user recovery : Option Bytes}
    (hu : ∀ pw, user = some pw → pw.length ≤ 2 ^ 63 - 1) (hr : ∀ pw, recovery = some pw → pw.length ≤ 2 ^ 63 - 1) {key v : Bytes} (hk : key.length = 32)
    {es : List Entry} (h : getVolumeKey p user recovery key es = ok (some v)) :
    ∃ e ∈ es, e.type = 3 ∧ ∃ pw, (user = some pw ∨ recovery = some pw) ∧ ∃ k, readKek e.data e.data.length = ok k ∧ ∃ n vk, PwSize k.method n ∧ vk.length = n ∧
      WrapsKey enc (Spec.pbkdf2 p.prf pw k.salt (k.iterations % 2 ^ 32) n) (k.wrapped.take (n + 8)) vk ∧ v = vk ++ key.drop n := by
  induction es with
  | nil => cases h
  | cons e es ih =>
    rw [getVolumeKey] at h
    split at h
    · obtain ⟨e', he, hx⟩ := ih h
      exact ⟨e', by simp [he], hx⟩
    · rename_i h3
      obtain ⟨k, h1, h⟩ := bind_eq_ok.1 h
      obtain ⟨r1, h2, h⟩ := bind_eq_ok.1 h
      obtain ⟨r2, h4, h⟩ := bind_eq_ok.1 h
      have key1 : ∀ pw, (user = some pw ∨ recovery = some pw) → ∀ w, unlockWithPassword p k pw key = ok (some w) → r2 = some w →
          ∃ e' ∈ e :: es, e'.type = 3 ∧ ∃ pw, (user = some pw ∨ recovery = some pw) ∧ ∃ k, readKek e'.data e'.data.length = ok k ∧
          ∃ n vk, PwSize k.method n ∧ vk.length = n ∧ WrapsKey enc (Spec.pbkdf2 p.prf pw k.salt (k.iterations % 2 ^ 32) n) (k.wrapped.take (n + 8)) vk ∧
            v = vk ++ key.drop n := by
        intro pw hpw w hw hr2
        rw [hr2] at h
        cases h
        obtain ⟨n, vk, g1, g2, g3, g4⟩ := unlockWithPassword_some hp (readKek_sized h1) pw key (by rcases hpw with h | h; exact hu pw h; exact hr pw h) hk hw
        exact ⟨e, by simp, by omega, pw, hpw, k, h1, n, vk, g1, g3, g2, g4⟩
      cases r1 with
      | some w =>
        simp only at h4
        cases h4
        cases user with
        | none => cases h2
        | some pw => exact key1 pw (Or.inl rfl) w h2 rfl
      | none =>
        cases recovery with
        | none =>
          cases h4
          obtain ⟨e', he, hx⟩ := ih h
          exact ⟨e', by simp [he], hx⟩
        | some pw =>
          cases r2 with
          | some w => exact key1 pw (Or.inr rfl) w h4 rfl
          | none =>
            obtain ⟨e', he, hx⟩ := ih h
            exact ⟨e', by simp [he], hx⟩

theorem getMasterKey_some {p : Prims} {enc : Bytes → Bytes → Bytes} (hp : PrimsOk p enc) {uuid vk mk v : Bytes} (hv : vk.length = 32) (hm : mk.length = 32)
    {es : List Entry} (h : getMasterKey p uuid vk mk es = ok (some v)) :
    ∃ e ∈ es, e.type = 2 ∧ e.identifier = uuid ∧ ∃ k, readKek e.data e.data.length = ok k ∧ ∃ n m, KeySize k.method n ∧ m.length = n ∧
      WrapsKey enc (vk.take n) (k.wrapped.take (n + 8)) m ∧ v = if n = 32 then m else m ++ (p.sha (m ++ k.identifier)).take 16 := by
  induction es with
  | nil => cases h
  | cons e es ih =>
    have lift := fun (h : getMasterKey p uuid vk mk es = ok (some v)) => (by
      obtain ⟨e', he, hx⟩ := ih h
      exact ⟨e', by simp [he], hx⟩ : ∃ e' ∈ e :: es, e'.type = 2 ∧ e'.identifier = uuid ∧ ∃ k, readKek e'.data e'.data.length = ok k ∧ ∃ n m, KeySize k.method n ∧ m.length = n ∧
      WrapsKey enc (vk.take n) (k.wrapped.take (n + 8)) m ∧ v = if n = 32 then m else m ++ (p.sha (m ++ k.identifier)).take 16)
    rw [getMasterKey] at h
    split at h
    · exact lift h
    · split at h
      · exact lift h
      · rename_i h3 h4
        obtain ⟨k, h1, h⟩ := bind_eq_ok.1 h
        obtain ⟨r, h2, h⟩ := bind_eq_ok.1 h
        cases r with
        | none => exact lift h
        | some w =>
          cases h
          obtain ⟨n, m, g1, g2, g3, g4⟩ := unlockWithKey_some hp (readKek_sized h1) vk mk hv hm h2
          exact ⟨e, by simp, by omega, by simpa using h4, k, h1, n, m, g1, g3, g2, g4⟩

open Volume

/-- If unlocking reports success for a volume with a key bag, one of the passwords set opens the volume and the cipher keys are those it gives. -/
theorem c32_unlock_sound {p : Prims} {enc : Bytes → Bytes → Bytes} (hp : PrimsOk p enc) (vk mk : Bytes) (hv : vk.length = 32) (hm : mk.length = 32)
    (s s' : State) (es : List Entry) (hs : s.keyBag = some es)
    (hu : ∀ pw, s.user = some pw → pw.length ≤ 2 ^ 63 - 1) (hr : ∀ pw, s.recovery = some pw → pw.length ≤ 2 ^ 63 - 1)
    (h : Volume.unlock p vk mk s = ok (s', true)) :
    ∃ pw keys, (s.user = some pw ∨ s.recovery = some pw) ∧ s' = { s with isLocked := false, keys := some keys } ∧
      Opens p enc es s.containerBag s.uuid pw keys := by
  unfold Volume.unlock at h
  rw [hs] at h
  simp only at h
  obtain ⟨r, h1, h⟩ := bind_eq_ok.1 h
  cases r with
  | none => cases h
  | some v =>
    obtain ⟨r, h2, h⟩ := bind_eq_ok.1 h
    cases r with
    | none => cases h
    | some m =>
      obtain ⟨k1, h3, h⟩ := bind_eq_ok.1 h
      obtain ⟨k2, h4, h⟩ := bind_eq_ok.1 h
      obtain ⟨e, he, ht, pw, hpw, k, hk, n, x, q1, q2, q3, q4⟩ := getVolumeKey_some hp hu hr hv h1
      have hn := q1.le
      have lv : v.length = 32 := by rw [q4, List.length_append, List.length_drop]; omega
      obtain ⟨e', he', ht', hi', k', hk', n', y, w1, w2, w3, w4⟩ := getMasterKey_some hp lv hm h2
      refine ⟨pw, (k1, k2), hpw, ?_, e, he, ht, k, hk, n, x, q1, q2, q3, e', he', ht', hi', k', hk', n', y, v, w1, w2, ?_, w3, ?_⟩
      · simp only [ok.injEq, Prod.mk.injEq] at h
        rw [hs]
        exact h.1.symm
      · rw [q4, List.take_left' q2]
      · have hn' := w1.le
        obtain ⟨b3, e3⟩ := rdN_inv h3
        obtain ⟨b4, e4⟩ := rdN_inv h4
        rw [← e3, ← e4, w4]
        split
        · rename_i h32
          subst h32
          rw [List.drop_zero, List.take_of_length_le (l := y.drop 16) (by rw [List.length_drop]; omega)]
        · have h16 : n' = 16 := by omega
          subst h16
          rw [List.drop_zero, List.take_left' w2, List.drop_left' w2, List.take_of_length_le (l := List.take 16 _) (by rw [List.length_take]; omega)]

/-- A history of calls; `secrets` are the passwords handed to the volume. -/
def secretsOf : List Op → List Bytes
  | [] => []
  | .setUser (some pw) :: os => pw :: secretsOf os
  | .setRecovery (some pw) :: os => pw :: secretsOf os
  | _ :: os => secretsOf os

/-- the local buffers of every call have 32 bytes and passwords a possible size -/
def OpOk : Op → Prop
  | .setUser (some pw) => pw.length ≤ 2 ^ 63 - 1
  | .setRecovery (some pw) => pw.length ≤ 2 ^ 63 - 1
  | .unlock vk mk => vk.length = 32 ∧ mk.length = 32
  | .getFileSystem vk mk _ => vk.length = 32 ∧ mk.length = 32
  | _ => True

theorem unlock_false {p : Prims} {vk mk : Bytes} {s s' : State} (h : Volume.unlock p vk mk s = ok (s', false)) : s' = s := by
  unfold Volume.unlock at h
  split at h
  · cases h
  · obtain ⟨r, h1, h⟩ := bind_eq_ok.1 h
    cases r with
    | none => cases h; rfl
    | some v =>
      obtain ⟨r, h2, h⟩ := bind_eq_ok.1 h
      cases r with
      | none => cases h
      | some m =>
        obtain ⟨_, _, h⟩ := bind_eq_ok.1 h
        obtain ⟨_, _, h⟩ := bind_eq_ok.1 h
        cases h

/-- invariant of the histories, `ss` are the passwords used so far -/
structure Inv (p : Prims) (enc : Bytes → Bytes → Bytes) (es cb : List Entry) (uuid : Bytes) (ss : List Bytes) (s : State) : Prop where
  bag : s.keyBag = some es
  cbag : s.containerBag = cb
  vid : s.uuid = uuid
  user : ∀ pw, s.user = some pw → pw ∈ ss ∧ pw.length ≤ 2 ^ 63 - 1
  recovery : ∀ pw, s.recovery = some pw → pw ∈ ss ∧ pw.length ≤ 2 ^ 63 - 1
  locked : s.isLocked = false → ∃ pw ∈ ss, ∃ keys, s.keys = some keys ∧ Opens p enc es cb uuid pw keys

theorem Inv.mono {p enc es cb uuid ss ss' s} (h : Inv p enc es cb uuid ss s) (hss : ∀ x ∈ ss, x ∈ ss') : Inv p enc es cb uuid ss' s where
  bag := h.bag
  cbag := h.cbag
  vid := h.vid
  user pw e := ⟨hss _ (h.user pw e).1, (h.user pw e).2⟩
  recovery pw e := ⟨hss _ (h.recovery pw e).1, (h.recovery pw e).2⟩
  locked e := by
    obtain ⟨pw, h1, h2⟩ := h.locked e
    exact ⟨pw, hss _ h1, h2⟩

theorem inv_unlock {p : Prims} {enc : Bytes → Bytes → Bytes} (hp : PrimsOk p enc) {es cb uuid ss s} (h : Inv p enc es cb uuid ss s) {vk mk : Bytes}
    (hv : vk.length = 32) (hm : mk.length = 32) {r : State × Bool} (hr : Volume.unlock p vk mk s = ok r) : Inv p enc es cb uuid ss r.1 := by
  obtain ⟨s', b⟩ := r
  cases b with
  | false => rw [unlock_false hr]; exact h
  | true =>
    obtain ⟨pw, keys, h1, h2, h3⟩ := c32_unlock_sound hp vk mk hv hm s s' es h.bag (fun pw e => (h.user pw e).2) (fun pw e => (h.recovery pw e).2) hr
    subst h2
    refine ⟨h.bag, h.cbag, h.vid, h.user, h.recovery, fun _ => ⟨pw, ?_, keys, rfl, ?_⟩⟩
    · rcases h1 with h1 | h1
      · exact (h.user pw h1).1
      · exact (h.recovery pw h1).1
    · rw [h.cbag, h.vid] at h3
      exact h3

theorem inv_fs {p enc es cb uuid ss s} (h : Inv p enc es cb uuid ss s) (b : Bool) : Inv p enc es cb uuid ss { s with fileSystem := b } :=
  ⟨h.bag, h.cbag, h.vid, h.user, h.recovery, h.locked⟩

theorem inv_step {p : Prims} {enc : Bytes → Bytes → Bytes} (hp : PrimsOk p enc) {es cb uuid ss s} (h : Inv p enc es cb uuid ss s) (o : Op) (ho : OpOk o)
    {s' : State} (hs : step p s o = ok s') : Inv p enc es cb uuid (secretsOf [o] ++ ss) s' := by
  cases o with
  | setUser pw =>
    cases hs
    cases pw with
    | none => exact ⟨h.bag, h.cbag, h.vid, fun _ e => (by cases e), h.recovery, h.locked⟩
    | some pw =>
      have h' := h.mono (ss' := pw :: ss) (by simp +contextual)
      refine ⟨h'.bag, h'.cbag, h'.vid, fun q e => ?_, h'.recovery, h'.locked⟩
      cases e
      exact ⟨by simp [secretsOf], ho⟩
  | setRecovery pw =>
    cases hs
    cases pw with
    | none => exact ⟨h.bag, h.cbag, h.vid, h.user, fun _ e => (by cases e), h.locked⟩
    | some pw =>
      have h' := h.mono (ss' := pw :: ss) (by simp +contextual)
      refine ⟨h'.bag, h'.cbag, h'.vid, h'.user, fun q e => ?_, h'.locked⟩
      cases e
      exact ⟨by simp [secretsOf], ho⟩
  | unlock vk mk =>
    simp only [step] at hs
    split at hs
    · split at hs
      · rename_i r hr
        cases hs
        exact inv_unlock hp h ho.1 ho.2 hr
      · cases hs; exact h
      · cases hs
    · cases hs; exact h
  | getFileSystem vk mk found =>
    simp only [step] at hs
    split at hs
    · rename_i r hr
      cases hs
      unfold getFileSystem at hr
      split at hr
      · cases hr; exact h
      · obtain ⟨s1, h1, hr⟩ := bind_eq_ok.1 hr
        have i1 : Inv p enc es cb uuid ss s1 := by
          split at h1
          · obtain ⟨r1, h2, h1⟩ := bind_eq_ok.1 h1
            cases h1
            exact inv_unlock hp h ho.1 ho.2 h2
          · cases h1; exact h
        split at hr
        · cases hr; exact inv_fs i1 true
        · cases hr; exact i1
    · cases hs; exact h
    · cases hs
  | isLocked => cases hs; exact h

theorem inv_run {p : Prims} {enc : Bytes → Bytes → Bytes} (hp : PrimsOk p enc) {es cb uuid} (os : List Op) {ss s} (h : Inv p enc es cb uuid ss s) (ho : ∀ o ∈ os, OpOk o)
    {s' : State} (hs : run p s os = ok s') : ∃ ss', (∀ x ∈ ss', x ∈ ss ∨ x ∈ secretsOf os) ∧ Inv p enc es cb uuid ss' s' := by
  induction os generalizing ss s with
  | nil => cases hs; exact ⟨ss, fun x hx => Or.inl hx, h⟩
  | cons o os ih =>
    obtain ⟨s1, h1, hs⟩ := bind_eq_ok.1 hs
    obtain ⟨ss', h2, h3⟩ := ih (inv_step hp h o (ho o (by simp)) h1) (fun x hx => ho x (by simp [hx])) hs
    refine ⟨ss', fun x hx => ?_, h3⟩
    have := h2 x hx
    rw [List.mem_append] at this
    rcases this with (h | h) | h
    · right
      cases o with
      | setUser pw => cases pw with
        | none => simp [secretsOf] at h
        | some pw => simp [secretsOf] at h ⊢; exact Or.inl h
      | setRecovery pw => cases pw with
        | none => simp [secretsOf] at h
        | some pw => simp [secretsOf] at h ⊢; exact Or.inl h
      | unlock => simp [secretsOf] at h
      | getFileSystem => simp [secretsOf] at h
      | isLocked => simp [secretsOf] at h
    · exact Or.inl h
    · right
      cases o with
      | setUser pw => cases pw with
        | none => simpa [secretsOf] using h
        | some pw => simp [secretsOf]; exact Or.inr h
      | setRecovery pw => cases pw with
        | none => simpa [secretsOf] using h
        | some pw => simp [secretsOf]; exact Or.inr h
      | unlock => simpa [secretsOf] using h
      | getFileSystem => simpa [secretsOf] using h
      | isLocked => simpa [secretsOf] using h

/-- Partial: a volume that was opened with a key bag of its own reports being unlocked, after any history of calls, only if one of the passwords given
opens it, and its cipher keys are those of that password. Missing: volumes that are locked without a key bag of their own, see `c32_unlocks_without_secret`. -/
theorem c32_only_secret_partial {p : Prims} {enc : Bytes → Bytes → Bytes} (hp : PrimsOk p enc) (bag : Option (Bool × List Entry)) (flags : Nat) (uuid : Bytes)
    (readBag : Nat → Nat → Res (List Entry)) (s s' : State) (es : List Entry) (ho : openRead bag flags uuid readBag = ok s) (hb : s.keyBag = some es)
    (os : List Op) (hos : ∀ o ∈ os, OpOk o) (hr : run p s os = ok s') (hl : s'.isLocked = false) :
    ∃ pw ∈ secretsOf os, ∃ keys, s'.keys = some keys ∧ Opens p enc es s.containerBag uuid pw keys := by
  have hi : Inv p enc es s.containerBag uuid [] s := by
    unfold openRead at ho
    split at ho
    · cases ho; cases hb
    · split at ho
      · obtain ⟨r, _, ho⟩ := bind_eq_ok.1 ho
        cases r with
        | none => cases ho; cases hb
        | some x =>
          obtain ⟨b, n⟩ := x
          obtain ⟨_, _, ho⟩ := bind_eq_ok.1 ho
          obtain ⟨es', _, ho⟩ := bind_eq_ok.1 ho
          cases ho
          exact ⟨hb, rfl, rfl, fun _ e => (by cases e), fun _ e => (by cases e), fun e => (by cases e)⟩
      · cases ho; cases hb
  obtain ⟨ss', h1, h2⟩ := inv_run hp os hi hos hr
  obtain ⟨pw, h3, keys, h4, h5⟩ := h2.locked hl
  exact ⟨pw, by have := h1 pw h3; simpa using this, keys, h4, h5⟩

/-- If the key bag of the container could not be read (e.g. it is encrypted in hardware), its volumes are locked; a single unlock without
any password reports success and the volume reports being unlocked. -/
theorem c32_unlocks_without_secret (p : Prims) (flags : Nat) (hf : flags % 2 = 0) (uuid : Bytes) (readBag : Nat → Nat → Res (List Entry)) (vk mk : Bytes) :
    ∃ s s', openRead (some (true, [])) flags uuid readBag = ok s ∧ s.isLocked = true ∧ Volume.unlock p vk mk s = ok (s', true) ∧
      run p s [.unlock vk mk] = ok s' ∧ s'.isLocked = false ∧ s'.keys = none := by
  refine ⟨{ uuid := uuid, containerBag := [], keyBag := none, isLocked := true }, { uuid := uuid, containerBag := [], keyBag := none, isLocked := false }, ?_, rfl, rfl, rfl, rfl, rfl⟩
  unfold openRead
  simp only
  rw [if_pos hf]
  rfl

/-- A correct password is recognised: if all type 3 entries of the volume key bag are understood and one of them wraps a key under the key derived
from the user password or the recovery password, a volume key is found. -/
theorem c32_secret_found {p : Prims} {enc : Bytes → Bytes → Bytes} (hp : PrimsOk p enc) (user recovery : Option Bytes) (key : Bytes) (hkey : key.length = 32)
    (hu : ∀ pw, user = some pw → pw.length ≤ 2 ^ 63 - 1) (hr : ∀ pw, recovery = some pw → pw.length ≤ 2 ^ 63 - 1) (es : List Entry)
    (hes : ∀ e ∈ es, e.type = 3 → ∃ k n, readKek e.data e.data.length = ok k ∧ PwSize k.method n ∧ k.iterations % 2 ^ 32 ≠ 0)
    (e : Entry) (he : e ∈ es) (ht : e.type = 3) (k : Kek) (hk : readKek e.data e.data.length = ok k) (n : Nat) (hn : PwSize k.method n) (vk : Bytes)
    (pw : Bytes) (hpw : user = some pw ∨ recovery = some pw)
    (hw : WrapsKey enc (Spec.pbkdf2 p.prf pw k.salt (k.iterations % 2 ^ 32) n) (k.wrapped.take (n + 8)) vk) :
    ∃ v, getVolumeKey p user recovery key es = ok (some v) := by
  induction es with
  | nil => simp at he
  | cons x es ih =>
    have ih' := fun h => ih (fun y hy => hes y (by simp [hy])) h
    rw [getVolumeKey]
    by_cases hx : x.type ≠ 3
    · rw [if_pos hx]
      exact ih' (by
        rcases List.mem_cons.1 he with rfl | h
        · exact absurd ht hx
        · exact h)
    · rw [if_neg hx]
      obtain ⟨kx, m, r1, r2, r3⟩ := hes x (by simp) (by omega)
      have hs := readKek_sized r1
      rw [r1, ok_bind]
      have tot : ∀ q, (user = some q ∨ recovery = some q) → (unlockWithPassword p kx q key = ok none ∨ ∃ w, unlockWithPassword p kx q key = ok (some w)) := by
        intro q hq
        obtain ⟨iv, bs, _, _, _, _, ee⟩ := unlockWithPassword_eq hp hs q key (by rcases hq with h | h; exact hu q h; exact hr q h) hkey r2 r3
        rw [ee]
        split
        · exact Or.inr ⟨_, rfl⟩
        · exact Or.inl rfl
      have hit : x = e → ∃ w, unlockWithPassword p kx pw key = ok (some w) := by
        rintro rfl
        rw [hk] at r1
        cases r1
        have hmn : m = n := by unfold PwSize at r2 hn; omega
        subst hmn
        obtain ⟨iv, bs, q1, q2, q3, q4, ee⟩ := unlockWithPassword_eq hp hs pw key (by rcases hpw with h | h; exact hu pw h; exact hr pw h) hkey r2 r3
        obtain ⟨bs', u1, u2, u3⟩ := hw
        rw [q4] at u3
        have := (keyWrap_inj (hp.cipher _) q1 (by rfl) q2 u1 u3).1
        rw [ee, this, if_pos kekIv_eq.symm]
        exact ⟨_, rfl⟩
      have rest : x ≠ e → ∃ v, getVolumeKey p user recovery key es = ok (some v) := by
        intro hne
        exact ih' (by
          rcases List.mem_cons.1 he with rfl | h
          · exact absurd rfl hne
          · exact h)
      cases user with
      | none =>
        cases recovery with
        | none => rcases hpw with h | h <;> cases h
        | some q =>
          have hq : pw = q := by rcases hpw with h | h <;> cases h; rfl
          subst hq
          simp only [ok_bind]
          rcases tot pw (Or.inr rfl) with t | ⟨w, t⟩
          · rw [t, ok_bind]
            exact rest (fun h => by obtain ⟨w, hw2⟩ := hit h; rw [t] at hw2; cases hw2)
          · rw [t, ok_bind]
            exact ⟨w, rfl⟩
      | some q0 =>
        rcases tot q0 (Or.inl rfl) with t | ⟨w, t⟩
        · simp only
          rw [t, ok_bind]
          cases recovery with
          | none =>
            simp only [ok_bind]
            have hq : pw = q0 := by rcases hpw with h | h <;> cases h; rfl
            subst hq
            exact rest (fun h => by obtain ⟨w, hw2⟩ := hit h; rw [t] at hw2; cases hw2)
          | some q =>
            simp only
            rcases tot q (Or.inr rfl) with t2 | ⟨w, t2⟩
            · rw [t2, ok_bind]
              refine rest (fun h => ?_)
              obtain ⟨w, hw2⟩ := hit h
              rcases hpw with h | h
              · cases h; rw [t] at hw2; cases hw2
              · cases h; rw [t2] at hw2; cases hw2
            · rw [t2, ok_bind]
              exact ⟨w, rfl⟩
        · simp only
          rw [t, ok_bind]
          cases recovery <;> exact ⟨w, rfl⟩

/-- An entry of type 3 that is not understood hides all entries behind it: no password is accepted. -/
theorem c32_malformed_entry_blocks (p : Prims) (user recovery : Option Bytes) (key : Bytes) (e : Entry) (he : e.type = 3) (hk : readKek e.data e.data.length = err) (es : List Entry) :
    getVolumeKey p user recovery key (e :: es) = err := by
  rw [getVolumeKey, if_neg (by omega), hk]
  rfl

/-! ## a concrete volume -/

def exPrims : Prims := { prf := fun k d => (k ++ d ++ List.replicate 32 7).take 32, dec := fun _ => List.reverse, sha := fun d => (d ++ List.replicate 32 7).take 32 }

theorem exPrims_ok : PrimsOk exPrims (fun _ => List.reverse) :=
  ⟨by intro k d; simp [exPrims]; omega, fun _ => blockCipher_reverse, by intro d; simp [exPrims]⟩

def exKek (m : Nat) (x : UInt8) : KekFields where
  hmac := List.replicate 32 1
  hmacSalt := List.replicate 8 2
  uuid := List.replicate 16 3
  method := m
  flags := [0, 0, 0, 0]
  wrapped := keyWrap List.reverse defaultIv (List.replicate 4 (List.replicate 8 x))
  iterations := [2]
  salt := List.replicate 16 5

def exContainerBag : List Entry := [{ identifier := List.replicate 16 9, type := 3, data := toLE 8 77 ++ toLE 8 1 },
  { identifier := List.replicate 16 9, type := 2, data := (exKek 0 8).encode }]
def exVolumeBag : List Entry := [{ identifier := List.replicate 16 1, type := 4, data := [1] }, { identifier := List.replicate 16 9, type := 3, data := (exKek 0 6).encode }]

def exState : State := { uuid := List.replicate 16 9, containerBag := exContainerBag, keyBag := some exVolumeBag, isLocked := true }

/-- opening gives the locked state -/
example : openRead (some (false, exContainerBag)) 0 (List.replicate 16 9) (fun b n => if b = 77 ∧ n = 1 then ok exVolumeBag else err) = ok exState := by decide +kernel

/-- a history in which the volume gets unlocked: the hypotheses of the theorem are met -/
example : run exPrims exState [.unlock (List.replicate 32 0) (List.replicate 32 0), .setUser (some [1, 2]), .getFileSystem (List.replicate 32 0) (List.replicate 32 0) true] =
    ok { exState with isLocked := false, user := some [1, 2], keys := some (List.replicate 16 8, List.replicate 16 8), fileSystem := true } := by decide +kernel

/-- without a password it stays locked -/
example : run exPrims exState [.unlock (List.replicate 32 0) (List.replicate 32 0), .isLocked] = ok exState := by decide +kernel

example : readKek [1, 2] 2 = err := by decide +kernel

end Verif.Props
