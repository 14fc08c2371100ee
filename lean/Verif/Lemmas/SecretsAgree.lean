import Verif.Lemmas.Secrets
import Verif.Props.C14
/-! Lemmas: the model with buffers finds the keys that the model without them finds -/
namespace Verif
namespace Secrets
open Res Spec KeyBag

/-- the functions called while unlocking, as modelled in `Model/Crypto.lean`, with no failure of memory -/
def ofPrims (p : Prims) : World where
  pbkdf2 k pw n b :=
    match Crypto.pbkdf2 p.prf pw k.salt (k.iterations % 2 ^ 32) (List.replicate n 0) with
    | .ok x => if x.length = n ∧ n ≤ b.length then (true, x ++ b.drop n) else (false, b)
    | _ => (false, b)
  unwrap key n d b :=
    match (do let w ← rdN d 0 n; Crypto.keyUnwrap p.dec key (key.length * 8) w (List.replicate n 0) : Res Bytes) with
    | .ok x => if x.length = n ∧ n ≤ b.length then (true, x ++ b.drop n) else (false, b)
    | _ => (false, b)
  sha d b := if (p.sha d).length = b.length then (true, p.sha d) else (false, b)
  setKeys _ := true
  makes _ := true
  frees _ := true

theorem ofPrims_fits (p : Prims) : (ofPrims p).Fits := by
  constructor
  · intro k pw n b
    simp only [ofPrims]
    split
    · split
      · simp only [List.length_append, List.length_drop]; omega
      · rfl
    · rfl
  · intro k n d b
    simp only [ofPrims]
    split
    · split
      · simp only [List.length_append, List.length_drop]; omega
      · rfl
    · rfl
  · intro d b
    simp only [ofPrims]
    split
    · assumption
    · rfl

/-- the same result -/
def Agrees (a : Res (Option Bytes)) (b : Res (Option Bool × Bytes × List Left)) : Prop :=
  match a with
  | .ok (some v) => ∃ l, b = ok (some true, v, l)
  | .ok none => ∃ key l, b = ok (some false, key, l)
  | .err => ∃ key l, b = ok (none, key, l)
  | .ub => True

theorem wrN_length {d bs d' : Bytes} {off : Nat} (h : wrN d off bs = ok d') : d'.length = d.length := by
  by_cases hl : off + bs.length ≤ d.length
  · obtain ⟨x, e, l⟩ := wrN_ok hl
    rw [e] at h
    cases h
    exact l
  · unfold wrN at h
    rw [if_neg hl] at h
    cases h

theorem unwrapBlocks_length {dec : Bytes → Bytes} {n round : Nat} (k : Nat) {buf b : Bytes} (h : Crypto.unwrapBlocks dec n round k buf = ok b) : b.length = buf.length := by
  induction k generalizing buf with
  | zero => cases h; rfl
  | succ k ih =>
    unfold Crypto.unwrapBlocks at h
    obtain ⟨x, e, h⟩ := bind_eq_ok.1 h
    unfold Crypto.unwrapStep at e
    obtain ⟨_, _, e⟩ := bind_eq_ok.1 e
    obtain ⟨_, _, e⟩ := bind_eq_ok.1 e
    obtain ⟨y, e1, e⟩ := bind_eq_ok.1 e
    exact (ih h).trans ((wrN_length e).trans (wrN_length e1))

theorem unwrapRounds_length {dec : Bytes → Bytes} {n : Nat} (k : Nat) {buf b : Bytes} (h : Crypto.unwrapRounds dec n k buf = ok b) : b.length = buf.length := by
  induction k generalizing buf with
  | zero => cases h; rfl
  | succ k ih =>
    unfold Crypto.unwrapRounds at h
    obtain ⟨x, e, h⟩ := bind_eq_ok.1 h
    exact (ih h).trans (unwrapBlocks_length _ e)

theorem keyUnwrap_length {dec : Bytes → Bytes → Bytes} {key : Bytes} {bits : Nat} {w buf b : Bytes} (h : Crypto.keyUnwrap dec key bits w buf = ok b) : b.length = buf.length := by
  unfold Crypto.keyUnwrap at h
  obtain ⟨_, _, h⟩ := bind_eq_ok.1 h
  obtain ⟨_, _, h⟩ := bind_eq_ok.1 h
  obtain ⟨_, _, h⟩ := bind_eq_ok.1 h
  obtain ⟨_, _, h⟩ := bind_eq_ok.1 h
  obtain ⟨_, _, h⟩ := bind_eq_ok.1 h
  obtain ⟨_, _, h⟩ := bind_eq_ok.1 h
  obtain ⟨_, _, h⟩ := bind_eq_ok.1 h
  obtain ⟨_, e, h⟩ := bind_eq_ok.1 h
  exact (unwrapRounds_length _ h).trans (wrN_length e)

theorem keyUnwrap_take (dec : Bytes → Bytes → Bytes) (key : Bytes) (n : Nat) (hn : n ≤ key.length) (w buf : Bytes) :
    Crypto.keyUnwrap dec (key.take n) ((key.take n).length * 8) w buf = Crypto.keyUnwrap dec key (n * 8) w buf := by
  have l : (key.take n).length = n := by rw [List.length_take]; omega
  unfold Crypto.keyUnwrap
  rw [l, show n * 8 / 8 = n by omega, rdN_le (d := key.take n) (by omega), rdN_le (d := key) (by omega), List.drop_zero, List.drop_zero, List.take_take, Nat.min_self]

theorem pbkdf2_length {prf : Bytes → Bytes → Bytes} (hp : ∀ p d, (prf p d).length = 32) {pw salt out x : Bytes} {c : Nat} (hpw : pw.length ≤ 2 ^ 63 - 1)
    (hs : salt.length = 16) (ho : out.length ≤ 32) (h : Crypto.pbkdf2 prf pw salt c out = ok x) : x.length = out.length := by
  by_cases hc : 1 ≤ c
  · rw [Props.c14_pbkdf2 prf hp pw salt out c hpw (by omega) hc (by omega)] at h
    have := ok.inj h
    rw [← this]
    unfold Spec.pbkdf2
    rw [List.length_take, Crypto.pbkdf2T_len prf hp]
    omega
  · have h0 : c = 0 := by omega
    rw [h0, Props.c14_zero_iterations] at h
    cases h

theorem rdN_left {a b : Bytes} {off n : Nat} (h : off + n ≤ a.length) : rdN (a ++ b) off n = rdN a off n := by
  rw [rdN_le h, rdN_le (by rw [List.length_append]; omega), List.drop_append_of_le_length (by omega), List.take_append_of_le_length (by rw [List.length_drop]; omega)]

theorem keyError_none {g : Bytes × Bytes} {key a b : Bytes} (ha : a.length = 32) (hb : b.length = 40) : ∃ k l, keyError g key a b = ok (none, k, l) := by
  unfold keyError
  rw [wipe_eq hb, ok_bind, wipe_eq ha, ok_bind]
  exact ⟨_, _, rfl⟩

theorem agrees_withPassword {p : Prims} (hp : PrimsOk p enc) {k : Kek} (hk : k.Sized) {pw : Bytes} (hpw : pw.length ≤ 2 ^ 63 - 1) {g : Bytes × Bytes} (h1 : g.1.length = 32)
    (h2 : g.2.length = 40) {key : Bytes} : Agrees (unlockWithPassword p k pw key) (withPassword (ofPrims p) k pw g key) := by
  by_cases hm : ¬ (k.method = 0 ∨ k.method = 2 ∨ k.method = 16)
  · have : unlockWithPassword p k pw key = err := by
      unfold unlockWithPassword
      rw [if_neg (by omega), if_neg (by omega)]
      rfl
    rw [this]
    unfold withPassword
    rw [if_pos hm]
    exact ⟨_, _, rfl⟩
  have hsz : ((if k.method = 0 ∨ k.method = 16 then ok (32, 40) else if k.method = 2 then ok (16, 24) else err : Res (Nat × Nat))) = ok (keySize k, wrappedSize k) := by
    unfold keySize wrappedSize
    by_cases hm2 : k.method = 2
    · rw [if_neg (by omega), if_pos hm2, if_pos hm2, if_pos hm2]
    · rw [if_pos (by omega), if_neg hm2, if_neg hm2]
  have hks : keySize k ≤ 32 ∧ wrappedSize k ≤ 40 ∧ keySize k + 8 = wrappedSize k := by unfold keySize wrappedSize; split <;> omega
  have hL : unlockWithPassword p k pw key = (do
      let pk ← Crypto.pbkdf2 p.prf pw k.salt (k.iterations % 2 ^ 32) (List.replicate (keySize k) 0)
      let w ← rdN k.wrapped 0 (wrappedSize k)
      let u ← Crypto.keyUnwrap p.dec pk (keySize k * 8) w (List.replicate (wrappedSize k) 0)
      let iv ← rdN u 0 8
      if iv = kekIv then do
        let v ← rdN u 8 (keySize k)
        let key ← wrN key 0 v
        return some key
      else return none) := by
    unfold unlockWithPassword
    rw [hsz, ok_bind]
  rw [hL]
  unfold withPassword
  rw [if_neg (by omega)]
  generalize keySize k = m at hks ⊢
  generalize wrappedSize k = n at hks ⊢
  cases hx : Crypto.pbkdf2 p.prf pw k.salt (k.iterations % 2 ^ 32) (List.replicate m 0) with
  | ub => trivial
  | err =>
    have hpb : (ofPrims p).pbkdf2 k pw m g.1 = (false, g.1) := by simp only [ofPrims]; rw [hx]
    rw [hpb]
    exact keyError_none (g := g) (key := key) h1 h2
  | ok x =>
    have lx : x.length = m := (pbkdf2_length hp.prf hpw hk.salt (by simp; omega) hx).trans (by simp)
    have hpb : (ofPrims p).pbkdf2 k pw m g.1 = (true, x ++ g.1.drop m) := by simp only [ofPrims]; rw [hx]; exact if_pos ⟨lx, by omega⟩
    rw [ok_bind, hpb]
    show Agrees _ (if true = false then _ else _)
    rw [if_neg (by decide)]
    have lpk : (x ++ g.1.drop m).length = 32 := by rw [List.length_append, List.length_drop]; omega
    rw [rdN_le (by rw [hk.wrapped]; omega), ok_bind, List.drop_zero, List.take_left' lx]
    have hun : (ofPrims p).unwrap x n k.wrapped g.2 = match Crypto.keyUnwrap p.dec x (m * 8) (k.wrapped.take n) (List.replicate n 0) with
      | .ok u => if u.length = n ∧ n ≤ g.2.length then (true, u ++ g.2.drop n) else (false, g.2)
      | _ => (false, g.2) := by
      simp only [ofPrims]
      rw [rdN_le (by rw [hk.wrapped]; omega), ok_bind, List.drop_zero, lx]
    cases hu : Crypto.keyUnwrap p.dec x (m * 8) (k.wrapped.take n) (List.replicate n 0) with
    | ub => trivial
    | err =>
      rw [hu] at hun
      rw [hun]
      exact keyError_none (g := g) (key := key) lpk h2
    | ok u =>
      have lu : u.length = n := (keyUnwrap_length hu).trans (by simp)
      have lwk : (u ++ g.2.drop n).length = 40 := by rw [List.length_append, List.length_drop]; omega
      rw [hu] at hun
      rw [hun.trans (if_pos ⟨lu, by omega⟩), ok_bind]
      show Agrees _ (if true = false then _ else _)
      rw [if_neg (by decide), wipe_eq lpk, ok_bind, rdN_left (by omega), rdN_le (by omega), ok_bind, ok_bind]
      by_cases hiv : (u.drop 0).take 8 = kekIv
      · rw [if_pos hiv, if_pos hiv, rdN_left (by omega), rdN_le (by omega), ok_bind, ok_bind]
        cases hw : wrN key 0 ((u.drop 8).take m) with
        | ub => trivial
        | err => unfold wrN at hw; split at hw <;> cases hw
        | ok v =>
          rw [ok_bind, ok_bind, wipe_eq lwk, ok_bind]
          exact ⟨_, rfl⟩
      · rw [if_neg hiv, if_neg hiv, wipe_eq lwk, ok_bind]
        exact ⟨_, _, rfl⟩

theorem agrees_withKey {p : Prims} (hp : PrimsOk p enc) {k : Kek} (hk : k.Sized) {vkey : Bytes} (hv : vkey.length = 32) {g : Bytes × Bytes} (h1 : g.1.length = 32)
    (h2 : g.2.length = 40) {key : Bytes} (hkey : key.length = 32) : Agrees (unlockWithKey p k vkey key) (withKey (ofPrims p) k vkey g key) := by
  by_cases hm : ¬ (k.method = 0 ∨ k.method = 2)
  · have : unlockWithKey p k vkey key = err := by
      unfold unlockWithKey
      rw [if_neg (by omega), if_neg (by omega)]
      rfl
    rw [this]
    unfold withKey
    rw [if_pos hm]
    exact ⟨_, _, rfl⟩
  have hsz : ((if k.method = 0 then ok (40, 32) else if k.method = 2 then ok (24, 16) else err : Res (Nat × Nat))) = ok (wrappedSize k, keySize k) := by
    unfold keySize wrappedSize
    by_cases hm2 : k.method = 2
    · rw [if_neg (by omega), if_pos hm2, if_pos hm2, if_pos hm2]
    · rw [if_pos (by omega), if_neg hm2, if_neg hm2]
  have hks : keySize k ≤ 32 ∧ wrappedSize k ≤ 40 ∧ keySize k + 8 = wrappedSize k := by unfold keySize wrappedSize; split <;> omega
  have hL : unlockWithKey p k vkey key = (do
      let w ← rdN k.wrapped 0 (wrappedSize k)
      let u ← Crypto.keyUnwrap p.dec vkey (keySize k * 8) w (List.replicate (wrappedSize k) 0)
      let iv ← rdN u 0 8
      if iv = kekIv then do
        let v ← rdN u 8 (keySize k)
        let key ← wrN key 0 v
        if k.method = 2 then do
          let key ← wrN key 16 k.identifier
          let s ← rdN key 0 32
          let key ← wrN key 16 ((p.sha s).take 16)
          return some key
        else return some key
      else return none) := by
    unfold unlockWithKey
    rw [hsz, ok_bind]
  rw [hL]
  unfold withKey
  rw [if_neg (by omega)]
  generalize keySize k = m at hks ⊢
  generalize wrappedSize k = n at hks ⊢
  have hun : (ofPrims p).unwrap (vkey.take m) n k.wrapped g.2 = match Crypto.keyUnwrap p.dec vkey (m * 8) (k.wrapped.take n) (List.replicate n 0) with
    | .ok u => if u.length = n ∧ n ≤ g.2.length then (true, u ++ g.2.drop n) else (false, g.2)
    | _ => (false, g.2) := by
    simp only [ofPrims]
    rw [rdN_le (by rw [hk.wrapped]; omega), ok_bind, List.drop_zero, keyUnwrap_take p.dec vkey m (by omega)]
  rw [rdN_le (by rw [hk.wrapped]; omega), ok_bind, List.drop_zero]
  cases hu : Crypto.keyUnwrap p.dec vkey (m * 8) (k.wrapped.take n) (List.replicate n 0) with
  | ub => trivial
  | err =>
    rw [hu] at hun
    rw [hun]
    exact keyError_none (g := g) (key := key) h1 h2
  | ok u =>
    have lu : u.length = n := (keyUnwrap_length hu).trans (by simp)
    have lwk : (u ++ g.2.drop n).length = 40 := by rw [List.length_append, List.length_drop]; omega
    rw [hu] at hun
    rw [hun.trans (if_pos ⟨lu, by omega⟩), ok_bind]
    show Agrees _ (if true = false then _ else _)
    rw [if_neg (by decide), rdN_left (by omega), rdN_le (by omega), ok_bind, ok_bind]
    by_cases hiv : (u.drop 0).take 8 = kekIv
    · rw [if_pos hiv, if_pos hiv, rdN_left (by omega), rdN_le (by omega), ok_bind, ok_bind]
      obtain ⟨v, e1, l1⟩ := wrN_ok (d := key) (off := 0) (bs := (u.drop 8).take m) (by simp only [List.length_take, List.length_drop]; omega)
      rw [e1, ok_bind, ok_bind]
      by_cases hm2 : k.method = 2
      · rw [if_pos hm2, if_pos hm2]
        obtain ⟨v2, e2, l2⟩ := wrN_ok (d := v) (off := 16) (bs := k.identifier) (by rw [hk.identifier]; omega)
        rw [e2, ok_bind, ok_bind, rdN_le (by omega), ok_bind, ok_bind]
        have hs : (ofPrims p).sha ((v2.drop 0).take 32) g.1 = (true, p.sha ((v2.drop 0).take 32)) := by
          simp only [ofPrims]
          rw [if_pos ((hp.sha _).trans h1.symm)]
        have ls := hp.sha ((v2.drop 0).take 32)
        rw [hs]
        generalize p.sha ((v2.drop 0).take 32) = hash at ls ⊢
        show Agrees _ (if true = false then _ else _)
        rw [if_neg (by decide), rdN_le (by omega), ok_bind, List.drop_zero]
        obtain ⟨v3, e3, l3⟩ := wrN_ok (d := v2) (off := 16) (bs := hash.take 16) (by simp only [List.length_take]; omega)
        rw [e3, ok_bind, ok_bind, wipe_eq ls, ok_bind, wipe_eq lwk, ok_bind]
        exact ⟨_, rfl⟩
      · rw [if_neg hm2, if_neg hm2, wipe_eq lwk, ok_bind]
        exact ⟨_, rfl⟩
    · rw [if_neg hiv, if_neg hiv, wipe_eq lwk, ok_bind]
      exact ⟨_, _, rfl⟩

theorem Agrees.keep {key : Bytes} {b : Res (Option Bool × Bytes × List Left)} (h : Agrees (ok none) b) (hg : Good key b) : ∃ l, b = ok (some false, key, l) := by
  obtain ⟨k, l, e⟩ := h
  obtain ⟨r, k', l', e', _, hk, _⟩ := hg
  rw [e] at e'
  cases e'
  exact ⟨l, by rw [e, hk rfl]⟩

/-- the user password is tried, without buffers -/
def plainUser (p : Prims) (k : Kek) (key : Bytes) : Option Bytes → Res (Option Bytes)
  | some pw => unlockWithPassword p k pw key
  | none => ok none

/-- the recovery password is tried, without buffers -/
def plainRecovery (p : Prims) (k : Kek) (key : Bytes) (r : Option Bytes) : Option Bytes → Res (Option Bytes)
  | some pw => if r = none then unlockWithPassword p k pw key else ok r
  | none => ok r

theorem getVolumeKey_cons {p : Prims} {user recovery : Option Bytes} {key : Bytes} {e : Entry} {es : List Entry} {k : Kek} (ht : ¬ e.type ≠ 3)
    (hk : readKek e.data e.data.length = ok k) : getVolumeKey p user recovery key (e :: es) = (do
      let r ← plainUser p k key user
      let r ← plainRecovery p k key r recovery
      match r with
      | some v => return some v
      | none => getVolumeKey p user recovery key es) := by
  rw [getVolumeKey, if_neg ht, hk, ok_bind]
  cases user with
  | none => cases recovery <;> rfl
  | some pw =>
    show (unlockWithPassword p k pw key >>= _) = (unlockWithPassword p k pw key >>= _)
    cases unlockWithPassword p k pw key with
    | ok r => cases r <;> cases recovery <;> rfl
    | err => rfl
    | ub => rfl

theorem agrees_volumeKey {p : Prims} (hp : PrimsOk p enc) {user recovery : Option Bytes} (hu : Session.Short user) (hr : Session.Short recovery)
    {g h : Nat → Bytes × Bytes} (hg : ∀ i, (g i).1.length = 32 ∧ (g i).2.length = 40) (hh : ∀ i, (h i).1.length = 32 ∧ (h i).2.length = 40) {key : Bytes}
    (hkey : key.length = 32) (es : List Entry) (i : Nat) : Agrees (getVolumeKey p user recovery key es) (volumeKey (ofPrims p) user recovery g h i key es) := by
  induction es generalizing i with
  | nil => exact ⟨_, _, rfl⟩
  | cons e es ih =>
    by_cases ht : e.type ≠ 3
    · unfold getVolumeKey volumeKey
      rw [if_pos ht, if_pos ht]
      exact ih _
    cases hk : readKek e.data e.data.length with
    | ub =>
      rw [getVolumeKey, if_neg ht, hk]
      trivial
    | err =>
      rw [getVolumeKey, if_neg ht, hk, volumeKey, if_neg ht, if_neg (show ¬ (ofPrims p).makes i = false from nofun), hk]
      exact ⟨_, _, rfl⟩
    | ok k =>
      have sk := readKek_sized hk
      rw [getVolumeKey_cons ht hk, volumeKey, if_neg ht, if_neg (show ¬ (ofPrims p).makes i = false from nofun), hk]
      dsimp only
      have a1 : Agrees (plainUser p k key user) (tryUser (ofPrims p) k (g i) key user) := by
        cases user with
        | none => exact ⟨_, _, rfl⟩
        | some pw => exact agrees_withPassword hp sk (hu pw rfl) (hg i).1 (hg i).2
      have g1 : Good key (tryUser (ofPrims p) k (g i) key user) := by
        cases user with
        | none => exact good_skip _ _
        | some pw => exact good_withPassword (ofPrims_fits p) k pw (hg i).1 (hg i).2 hkey
      have a2 : Agrees (plainRecovery p k key none recovery) (tryRecovery (ofPrims p) k (h i) key (some false) recovery) := by
        cases recovery with
        | none => exact ⟨_, _, rfl⟩
        | some pw => exact agrees_withPassword hp sk (hr pw rfl) (hh i).1 (hh i).2
      have g2 : Good key (tryRecovery (ofPrims p) k (h i) key (some false) recovery) := by
        cases recovery with
        | none => exact good_skip _ _
        | some pw => exact good_withPassword (ofPrims_fits p) k pw (hh i).1 (hh i).2 hkey
      have r1 : ∀ v, plainRecovery p k key (some v) recovery = ok (some v) := fun v => by cases recovery <;> rfl
      have r2 : ∀ v, tryRecovery (ofPrims p) k (h i) v (some true) recovery = ok (some true, v, []) := fun v => by cases recovery <;> rfl
      have ih := ih (i + 1)
      generalize plainUser p k key user = A at a1 ⊢
      generalize tryUser (ofPrims p) k (g i) key user = B at a1 g1 ⊢
      rcases A with (_ | v) | _ | _
      · obtain ⟨l, e1⟩ := a1.keep g1
        rw [e1, ok_bind, ok_bind]
        show Agrees _ (do
          let (r, key, m) ← tryRecovery (ofPrims p) k (h i) key (some false) recovery
          if r = none then ok (none, key, l ++ m)
          else if (ofPrims p).frees i = false then ok (none, key, l ++ m)
          else if r = some true then ok (some true, key, l ++ m)
          else do
            let (r, key, n) ← volumeKey (ofPrims p) user recovery g h (i + 1) key es
            ok (r, key, l ++ m ++ n))
        generalize plainRecovery p k key none recovery = A at a2 ⊢
        generalize tryRecovery (ofPrims p) k (h i) key (some false) recovery = B at a2 g2 ⊢
        rcases A with (_ | v) | _ | _
        · obtain ⟨m, e2⟩ := a2.keep g2
          rw [e2]
          show Agrees (getVolumeKey p user recovery key es) (do
            let (r, key, n) ← volumeKey (ofPrims p) user recovery g h (i + 1) key es
            ok (r, key, l ++ m ++ n))
          generalize getVolumeKey p user recovery key es = C at ih ⊢
          rcases C with (_ | v) | _ | _
          · obtain ⟨_, _, e3⟩ := ih; rw [e3]; exact ⟨_, _, rfl⟩
          · obtain ⟨_, e3⟩ := ih; rw [e3]; exact ⟨_, rfl⟩
          · obtain ⟨_, _, e3⟩ := ih; rw [e3]; exact ⟨_, _, rfl⟩
          · trivial
        · obtain ⟨m, e2⟩ := a2
          rw [e2]
          exact ⟨_, rfl⟩
        · obtain ⟨_, m, e2⟩ := a2
          rw [e2]
          exact ⟨_, _, rfl⟩
        · trivial
      · obtain ⟨l, e1⟩ := a1
        rw [e1, ok_bind, ok_bind, r1, ok_bind]
        dsimp only
        rw [if_neg (by decide), r2]
        exact ⟨_, rfl⟩
      · obtain ⟨_, l, e1⟩ := a1
        rw [e1]
        exact ⟨_, _, rfl⟩
      · trivial

theorem agrees_masterKey {p : Prims} (hp : PrimsOk p enc) (uuid : Bytes) {vkey : Bytes} (hv : vkey.length = 32)
    {g : Nat → Bytes × Bytes} (hg : ∀ i, (g i).1.length = 32 ∧ (g i).2.length = 40) {key : Bytes}
    (hkey : key.length = 32) (es : List Entry) (i : Nat) : Agrees (getMasterKey p uuid vkey key es) (masterKey (ofPrims p) uuid vkey g i key es) := by
  induction es generalizing i with
  | nil => exact ⟨_, _, rfl⟩
  | cons e es ih =>
    unfold getMasterKey masterKey
    by_cases ht : e.type ≠ 2
    · rw [if_pos ht, if_pos ht]
      exact ih _
    rw [if_neg ht, if_neg ht]
    by_cases hi : e.identifier ≠ uuid
    · rw [if_pos hi, if_pos hi]
      exact ih _
    rw [if_neg hi, if_neg hi, if_neg (show ¬ (ofPrims p).makes i = false from nofun)]
    cases hk : readKek e.data e.data.length with
    | ub => trivial
    | err => exact ⟨_, _, rfl⟩
    | ok k =>
      have sk := readKek_sized hk
      rw [ok_bind]
      dsimp only
      have a1 := agrees_withKey hp sk hv (hg i).1 (hg i).2 hkey
      have g1 := good_withKey (ofPrims_fits p) sk.1 vkey (hg i).1 (hg i).2 hkey
      generalize unlockWithKey p k vkey key = A at a1 ⊢
      generalize withKey (ofPrims p) k vkey (g i) key = B at a1 g1 ⊢
      rcases A with (_ | v) | _ | _
      · obtain ⟨l, e1⟩ := a1.keep g1
        have ih := ih (i + 1)
        rw [e1]
        show Agrees (getMasterKey p uuid vkey key es) (do
          let (r, key, n) ← masterKey (ofPrims p) uuid vkey g (i + 1) key es
          ok (r, key, l ++ n))
        generalize getMasterKey p uuid vkey key es = C at ih ⊢
        rcases C with (_ | v) | _ | _
        · obtain ⟨_, _, e3⟩ := ih; rw [e3]; exact ⟨_, _, rfl⟩
        · obtain ⟨_, e3⟩ := ih; rw [e3]; exact ⟨_, rfl⟩
        · obtain ⟨_, _, e3⟩ := ih; rw [e3]; exact ⟨_, _, rfl⟩
        · trivial
      · obtain ⟨l, e1⟩ := a1
        rw [e1]
        exact ⟨_, rfl⟩
      · obtain ⟨_, l, e1⟩ := a1
        rw [e1]
        exact ⟨_, _, rfl⟩
      · trivial

end Secrets
end Verif
