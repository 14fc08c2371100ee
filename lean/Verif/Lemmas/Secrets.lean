import Verif.Model.Secrets
import Verif.Lemmas.SessionData
import Verif.Lemmas.Crypto
/-! Lemmas: memory that holds passwords and keys -/
namespace Verif
namespace Secrets
open Res Spec

/-- the functions called while unlocking write to the buffer that they are given only -/
structure World.Fits (w : World) : Prop where
  pbkdf2 : ∀ k pw n b, (w.pbkdf2 k pw n b).2.length = b.length
  unwrap : ∀ key n d b, (w.unwrap key n d b).2.length = b.length
  sha : ∀ d b, (w.sha d b).2.length = b.length

theorem wipe_eq {b : Bytes} {n : Nat} (h : b.length = n) : wipe n b = ok (List.replicate n 0) := by
  unfold wipe
  rw [if_pos (by omega), List.drop_of_length_le (by omega), List.append_nil]

theorem clean_wiped {b : Bytes} {n : Nat} (h : b.length = n) : (Left.mk b (List.replicate n 0)).Clean :=
  Or.inr ⟨by simp [h], fun _ hx => List.eq_of_mem_replicate hx⟩

theorem clean_same (b : Bytes) : (Left.mk b b).Clean := Or.inl rfl

theorem wrN_ok {d bs : Bytes} {off : Nat} (h : off + bs.length ≤ d.length) : ∃ d', wrN d off bs = ok d' ∧ d'.length = d.length := by
  refine ⟨_, if_pos h, ?_⟩
  simp only [List.length_append, List.length_take, List.length_drop]
  omega

/-- the outcome of a function that writes a key to a buffer: the buffer keeps its size, it is not written to unless there is a key or an error, and the buffers of the
function are clean -/
def Good (key : Bytes) (out : Res (Option Bool × Bytes × List Left)) : Prop :=
  ∃ r key' l, out = ok (r, key', l) ∧ key'.length = key.length ∧ (r = some false → key' = key) ∧ ∀ x ∈ l, x.Clean

theorem clean_two {a b : Left} (ha : a.Clean) (hb : b.Clean) : ∀ x ∈ [a, b], x.Clean := by
  intro x hx
  rcases List.mem_cons.1 hx with rfl | hx
  · exact ha
  · rw [List.mem_singleton.1 hx]; exact hb

theorem good_keyError {g : Bytes × Bytes} (h1 : g.1.length = 32) (h2 : g.2.length = 40) {key key' a b : Bytes} (ha : a.length = 32) (hb : b.length = 40)
    (hk : key'.length = key.length) : Good key (keyError g key' a b) := by
  unfold keyError
  rw [wipe_eq hb, ok_bind, wipe_eq ha, ok_bind]
  exact ⟨_, _, _, rfl, hk, nofun, clean_two (clean_wiped h1) (clean_wiped h2)⟩

theorem good_withPassword {w : World} (hw : w.Fits) (k : KeyBag.Kek) (pw : Bytes) {g : Bytes × Bytes} (h1 : g.1.length = 32) (h2 : g.2.length = 40) {key : Bytes}
    (hkey : key.length = 32) : Good key (withPassword w k pw g key) := by
  unfold withPassword
  by_cases hm : ¬ (k.method = 0 ∨ k.method = 2 ∨ k.method = 16)
  · rw [if_pos hm]
    exact ⟨_, _, _, rfl, rfl, nofun, clean_two (clean_same _) (clean_same _)⟩
  rw [if_neg hm]
  have hp : keySize k ≤ 32 := by unfold keySize; split <;> omega
  rcases hA : w.pbkdf2 k pw (keySize k) g.1 with ⟨good, pk⟩
  have lpk : pk.length = 32 := by have := hw.pbkdf2 k pw (keySize k) g.1; rw [hA] at this; exact this.trans h1
  show Good key (if good = false then _ else _)
  by_cases hg : good = false
  · rw [if_pos hg]
    exact good_keyError h1 h2 lpk h2 rfl
  rw [if_neg hg]
  clear hg
  rcases hB : w.unwrap (pk.take (keySize k)) (wrappedSize k) k.wrapped g.2 with ⟨good, wk⟩
  have lwk : wk.length = 40 := by have := hw.unwrap (pk.take (keySize k)) (wrappedSize k) k.wrapped g.2; rw [hB] at this; exact this.trans h2
  show Good key (if good = false then _ else _)
  by_cases hg : good = false
  · rw [if_pos hg]
    exact good_keyError h1 h2 lpk lwk rfl
  rw [if_neg hg]
  clear hg
  rw [wipe_eq lpk, ok_bind, rdN_le (by omega), ok_bind]
  split
  · rw [rdN_le (by omega), ok_bind]
    obtain ⟨key', e, l⟩ := wrN_ok (d := key) (off := 0) (bs := (wk.drop 8).take (keySize k)) (by simp only [List.length_take, List.length_drop]; omega)
    rw [e, ok_bind, wipe_eq lwk, ok_bind]
    exact ⟨_, _, _, rfl, l, nofun, clean_two (clean_wiped h1) (clean_wiped h2)⟩
  · rw [wipe_eq lwk, ok_bind]
    exact ⟨_, _, _, rfl, rfl, fun _ => rfl, clean_two (clean_wiped h1) (clean_wiped h2)⟩

theorem good_withKey {w : World} (hw : w.Fits) {k : KeyBag.Kek} (hk : k.identifier.length = 16) (vkey : Bytes) {g : Bytes × Bytes} (h1 : g.1.length = 32)
    (h2 : g.2.length = 40) {key : Bytes} (hkey : key.length = 32) : Good key (withKey w k vkey g key) := by
  unfold withKey
  by_cases hm : ¬ (k.method = 0 ∨ k.method = 2)
  · rw [if_pos hm]
    exact ⟨_, _, _, rfl, rfl, nofun, clean_two (clean_same _) (clean_same _)⟩
  rw [if_neg hm]
  have hp : keySize k ≤ 32 := by unfold keySize; split <;> omega
  rcases hB : w.unwrap (vkey.take (keySize k)) (wrappedSize k) k.wrapped g.2 with ⟨good, wk⟩
  have lwk : wk.length = 40 := by have := hw.unwrap (vkey.take (keySize k)) (wrappedSize k) k.wrapped g.2; rw [hB] at this; exact this.trans h2
  show Good key (if good = false then _ else _)
  by_cases hg : good = false
  · rw [if_pos hg]
    exact good_keyError h1 h2 h1 lwk rfl
  rw [if_neg hg]
  clear hg
  rw [rdN_le (by omega), ok_bind]
  split
  · rw [rdN_le (by omega), ok_bind]
    obtain ⟨key1, e, l⟩ := wrN_ok (d := key) (off := 0) (bs := (wk.drop 8).take (keySize k)) (by simp only [List.length_take, List.length_drop]; omega)
    rw [e, ok_bind]
    split
    · obtain ⟨key2, e2, l2⟩ := wrN_ok (d := key1) (off := 16) (bs := k.identifier) (by omega)
      rw [e2, ok_bind, rdN_le (by omega), ok_bind]
      rcases hC : w.sha ((key2.drop 0).take 32) g.1 with ⟨good, hash⟩
      have lh : hash.length = 32 := by have := hw.sha ((key2.drop 0).take 32) g.1; rw [hC] at this; exact this.trans h1
      show Good key (if good = false then _ else _)
      by_cases hg : good = false
      · rw [if_pos hg]
        exact good_keyError h1 h2 lh lwk (l2.trans l)
      rw [if_neg hg]
      clear hg
      rw [rdN_le (by omega), ok_bind]
      obtain ⟨key3, e3, l3⟩ := wrN_ok (d := key2) (off := 16) (bs := (hash.drop 0).take 16) (by simp only [List.length_take, List.length_drop]; omega)
      rw [e3, ok_bind, wipe_eq lh, ok_bind, wipe_eq lwk, ok_bind]
      exact ⟨_, _, _, rfl, l3.trans (l2.trans l), nofun, clean_two (clean_wiped h1) (clean_wiped h2)⟩
    · rw [wipe_eq lwk, ok_bind]
      exact ⟨_, _, _, rfl, l, nofun, clean_two (clean_same _) (clean_wiped h2)⟩
  · rw [wipe_eq lwk, ok_bind]
    exact ⟨_, _, _, rfl, rfl, fun _ => rfl, clean_two (clean_same _) (clean_wiped h2)⟩

theorem clean_append {l m : List Left} (hl : ∀ x ∈ l, x.Clean) (hm : ∀ x ∈ m, x.Clean) : ∀ x ∈ l ++ m, x.Clean := fun x hx => (List.mem_append.1 hx).elim (hl x) (hm x)

theorem good_skip (key : Bytes) (r : Option Bool) : Good key (ok (r, key, [])) := ⟨_, _, _, rfl, rfl, fun _ => rfl, nofun⟩

theorem good_volumeKey {w : World} (hw : w.Fits) (user recovery : Option Bytes) {g h : Nat → Bytes × Bytes} (hg : ∀ i, (g i).1.length = 32 ∧ (g i).2.length = 40)
    (hh : ∀ i, (h i).1.length = 32 ∧ (h i).2.length = 40) (es : List KeyBag.Entry) (hes : Session.KeysFit 3 es) (i : Nat) (key : Bytes) (hkey : key.length = 32) :
    Good key (volumeKey w user recovery g h i key es) := by
  induction es generalizing i key with
  | nil => exact good_skip _ _
  | cons e es ih =>
    have ih := ih (fun e he => hes e (List.mem_cons_of_mem _ he))
    unfold volumeKey
    split
    · exact ih _ _ hkey
    rename_i ht
    split
    · exact good_skip _ _
    split
    · rename_i hu
      exact absurd hu (hes e List.mem_cons_self (by omega))
    · exact good_skip _ _
    rename_i k hk
    have a : Good key (tryUser w k (g i) key user) := by
      cases user with
      | none => exact good_skip _ _
      | some pw => exact good_withPassword hw k pw (hg i).1 (hg i).2 hkey
    obtain ⟨r, key1, l, e1, l1, s1, c1⟩ := a
    rw [e1, ok_bind]
    dsimp only
    split
    · rename_i hr
      subst hr
      exact ⟨_, _, _, rfl, l1, nofun, c1⟩
    have b : Good key1 (tryRecovery w k (h i) key1 r recovery) := by
      unfold tryRecovery
      split
      · split
        · exact good_withPassword hw k _ (hh i).1 (hh i).2 (l1.trans hkey)
        · exact good_skip _ _
      · exact good_skip _ _
    have b' : ∀ q m, (tryRecovery w k (h i) key1 r recovery) = ok (some false, q, m) → r = some false := by
      intro q m hq
      unfold tryRecovery at hq
      split at hq
      · split at hq
        · assumption
        · exact (Prod.mk.inj (ok.inj hq)).1
      · exact (Prod.mk.inj (ok.inj hq)).1
    obtain ⟨r2, key2, m, e2, l2, s2, c2⟩ := b
    rw [e2, ok_bind]
    dsimp only
    split
    · exact ⟨_, _, _, rfl, l2.trans l1, nofun, clean_append c1 c2⟩
    split
    · exact ⟨_, _, _, rfl, l2.trans l1, nofun, clean_append c1 c2⟩
    split
    · exact ⟨_, _, _, rfl, l2.trans l1, nofun, clean_append c1 c2⟩
    rename_i n1 _ n2
    have r2f : r2 = some false := by
      rcases r2 with _ | _ | _
      · exact absurd rfl n1
      · rfl
      · exact absurd rfl n2
    subst r2f
    have rf := b' _ _ e2
    obtain ⟨r3, key3, n, e3, l3, s3, c3⟩ := ih (i + 1) key2 (l2.trans (l1.trans hkey))
    rw [e3, ok_bind]
    exact ⟨_, _, _, rfl, l3.trans (l2.trans l1), fun q => (s3 q).trans ((s2 rfl).trans (s1 rf)), clean_append (clean_append c1 c2) c3⟩

theorem good_masterKey {w : World} (hw : w.Fits) (uuid vkey : Bytes) {g : Nat → Bytes × Bytes} (hg : ∀ i, (g i).1.length = 32 ∧ (g i).2.length = 40)
    (es : List KeyBag.Entry) (hes : Session.KeysFit 2 es) (i : Nat) (key : Bytes) (hkey : key.length = 32) : Good key (masterKey w uuid vkey g i key es) := by
  induction es generalizing i key with
  | nil => exact good_skip _ _
  | cons e es ih =>
    have ih := ih (fun e he => hes e (List.mem_cons_of_mem _ he))
    unfold masterKey
    split
    · exact ih _ _ hkey
    rename_i ht
    split
    · exact ih _ _ hkey
    split
    · exact good_skip _ _
    split
    · rename_i hu
      exact absurd hu (hes e List.mem_cons_self (by omega))
    · exact good_skip _ _
    rename_i k hk
    obtain ⟨r, key1, l, e1, l1, s1, c1⟩ := good_withKey hw (KeyBag.readKek_sized hk).1 vkey (hg i).1 (hg i).2 hkey
    rw [e1, ok_bind]
    dsimp only
    split
    · exact ⟨_, _, _, rfl, l1, nofun, c1⟩
    split
    · exact ⟨_, _, _, rfl, l1, nofun, c1⟩
    split
    · exact ⟨_, _, _, rfl, l1, nofun, c1⟩
    rename_i n1 _ n2
    have rf : r = some false := by
      rcases r with _ | _ | _
      · exact absurd rfl n1
      · rfl
      · exact absurd rfl n2
    obtain ⟨r3, key3, n, e3, l3, s3, c3⟩ := ih (i + 1) key1 (l1.trans hkey)
    rw [e3, ok_bind]
    exact ⟨_, _, _, rfl, l3.trans l1, fun q => (s3 q).trans (s1 rf), clean_append c1 c3⟩

theorem volumeKey_length {w : World} (hw : w.Fits) (user recovery : Option Bytes) {g h : Nat → Bytes × Bytes} (hg : ∀ i, (g i).1.length = 32 ∧ (g i).2.length = 40)
    (hh : ∀ i, (h i).1.length = 32 ∧ (h i).2.length = 40) (es : List KeyBag.Entry) (i : Nat) (key : Bytes) (hkey : key.length = 32) {r : Option Bool} {key' : Bytes} {l : List Left}
    (e : volumeKey w user recovery g h i key es = ok (r, key', l)) : key'.length = 32 := by
  induction es generalizing i key r key' l with
  | nil => cases e; exact hkey
  | cons a es ih =>
    unfold volumeKey at e
    split at e
    · exact ih _ _ hkey e
    split at e
    · cases e; exact hkey
    split at e
    · cases e
    · cases e; exact hkey
    rename_i k hk
    obtain ⟨⟨r1, k1, l1⟩, e1, e⟩ := bind_eq_ok.1 e
    have h1 : k1.length = 32 := by
      unfold tryUser at e1
      split at e1
      · obtain ⟨_, _, _, e2, h2, _⟩ := good_withPassword hw k _ (hg i).1 (hg i).2 hkey
        rw [e2] at e1; cases e1; exact h2.trans hkey
      · cases e1; exact hkey
    dsimp only at e
    split at e
    · cases e; exact h1
    obtain ⟨⟨r2, k2, l2⟩, e2, e⟩ := bind_eq_ok.1 e
    have h2 : k2.length = 32 := by
      unfold tryRecovery at e2
      split at e2
      · split at e2
        · obtain ⟨_, _, _, e3, h3, _⟩ := good_withPassword hw k _ (hh i).1 (hh i).2 h1
          rw [e3] at e2; cases e2; exact h3.trans h1
        · cases e2; exact h1
      · cases e2; exact h1
    dsimp only at e
    split at e
    · cases e; exact h2
    split at e
    · cases e; exact h2
    split at e
    · cases e; exact h2
    obtain ⟨⟨r3, k3, l3⟩, e3, e⟩ := bind_eq_ok.1 e
    cases e
    exact ih _ _ h2 e3

theorem masterKey_length {w : World} (hw : w.Fits) (uuid vkey : Bytes) {g : Nat → Bytes × Bytes} (hg : ∀ i, (g i).1.length = 32 ∧ (g i).2.length = 40)
    (es : List KeyBag.Entry) (i : Nat) (key : Bytes) (hkey : key.length = 32) {r : Option Bool} {key' : Bytes} {l : List Left}
    (e : masterKey w uuid vkey g i key es = ok (r, key', l)) : key'.length = 32 := by
  induction es generalizing i key r key' l with
  | nil => cases e; exact hkey
  | cons a es ih =>
    unfold masterKey at e
    split at e
    · exact ih _ _ hkey e
    split at e
    · exact ih _ _ hkey e
    split at e
    · cases e; exact hkey
    split at e
    · cases e
    · cases e; exact hkey
    rename_i k hk
    obtain ⟨⟨r1, k1, l1⟩, e1, e⟩ := bind_eq_ok.1 e
    have h1 : k1.length = 32 := by
      obtain ⟨_, _, _, e2, h2, _⟩ := good_withKey hw (KeyBag.readKek_sized hk).1 vkey (hg i).1 (hg i).2 hkey
      rw [e2] at e1; cases e1; exact h2.trans hkey
    dsimp only at e
    split at e
    · cases e; exact h1
    split at e
    · cases e; exact h1
    split at e
    · cases e; exact h1
    obtain ⟨⟨r3, k3, l3⟩, e3, e⟩ := bind_eq_ok.1 e
    cases e
    exact ih _ _ h1 e3

/-! ## Passwords -/

/-- the size says how large the block is -/
def Slot.Fits (s : Slot) : Prop := ∀ b, s.block = some b → b.length = s.size

/-- a source that fills a block of the size asked for -/
structure Source.Fits (i : Source) : Prop where
  measure : ∃ m, i.measure = ok m
  fill : ∀ n, i.measure = ok (some n) → ∃ r b, i.fill (n + 1) = ok (r, b) ∧ b.length = n + 1

theorem blank_eq {b : List (Option UInt8)} {n : Nat} (h : b.length = n) : blank n b = ok (List.replicate n (some 0)) := by
  unfold blank
  rw [if_pos (by omega), List.drop_of_length_le (by omega), List.append_nil]

theorem blank_replicate (n : Nat) : Blank (List.replicate n (some 0)) := fun _ hx => List.eq_of_mem_replicate hx

def AllBlank (l : List (List (Option UInt8))) : Prop := ∀ b ∈ l, Blank b

theorem allBlank_append {l m : List (List (Option UInt8))} (hl : AllBlank l) (hm : AllBlank m) : AllBlank (l ++ m) :=
  fun x hx => (List.mem_append.1 hx).elim (hl x) (hm x)

theorem allBlank_one (n : Nat) : AllBlank [List.replicate n (some 0)] := fun _ hb => by rw [List.mem_singleton.1 hb]; exact blank_replicate n

theorem clear_ok {s : Slot} (hs : s.Fits) : ∃ n f, clear s = ok (⟨none, n⟩, f) ∧ AllBlank f := by
  obtain ⟨b, n⟩ := s
  unfold clear
  cases b with
  | none => exact ⟨n, [], rfl, nofun⟩
  | some b =>
    dsimp only
    rw [blank_eq (hs b rfl), ok_bind]
    exact ⟨0, _, rfl, allBlank_one _⟩

theorem onError_ok {s : Slot} (hs : s.Fits) : ∃ f, onError s = ok (⟨none, 0⟩, f) ∧ AllBlank f := by
  obtain ⟨b, n⟩ := s
  unfold onError
  cases b with
  | none => exact ⟨[], rfl, nofun⟩
  | some b =>
    dsimp only
    rw [blank_eq (hs b rfl), ok_bind]
    exact ⟨_, rfl, allBlank_one _⟩

theorem fits_none (n : Nat) : (Slot.mk none n).Fits := nofun

theorem set_ok {i : Source} (hi : i.Fits) {s : Slot} (hs : s.Fits) :
    ∃ r s' f, set i s = ok (r, s', f) ∧ s'.Fits ∧ AllBlank f ∧ (r = false → s'.block = none) := by
  obtain ⟨n0, f0, e0, b0⟩ := clear_ok hs
  unfold set
  rw [e0, ok_bind]
  dsimp only
  obtain ⟨m, hm⟩ := hi.1
  rw [hm, ok_bind]
  cases m with
  | none =>
    obtain ⟨f, e, hb⟩ := onError_ok (fits_none n0)
    dsimp only
    rw [e, ok_bind]
    exact ⟨_, _, _, rfl, fits_none _, allBlank_append b0 hb, fun _ => rfl⟩
  | some n =>
    dsimp only
    split
    · obtain ⟨f, e, hb⟩ := onError_ok (fits_none n)
      rw [e, ok_bind]
      exact ⟨_, _, _, rfl, fits_none _, allBlank_append b0 hb, fun _ => rfl⟩
    split
    · obtain ⟨f, e, hb⟩ := onError_ok (fits_none (n + 1))
      rw [e, ok_bind]
      exact ⟨_, _, _, rfl, fits_none _, allBlank_append b0 hb, fun _ => rfl⟩
    obtain ⟨r, b, e1, l1⟩ := hi.2 n hm
    rw [e1, ok_bind]
    dsimp only
    have hf : (Slot.mk (some b) (n + 1)).Fits := fun _ h => by cases h; exact l1
    split
    · obtain ⟨f, e, hb⟩ := onError_ok hf
      rw [e, ok_bind]
      exact ⟨_, _, _, rfl, fits_none _, allBlank_append b0 hb, fun _ => rfl⟩
    rw [if_pos (by omega)]
    exact ⟨_, _, _, rfl, fun _ h => by cases h; simp [l1], b0, nofun⟩

theorem call_ok {p : Passwords} (hu : p.user.Fits) (hr : p.recovery.Fits) (c : Call) (hc : ∀ i, c = .setUser i ∨ c = .setRecovery i → i.Fits) :
    ∃ p' f, call p c = ok (p', f) ∧ p'.user.Fits ∧ p'.recovery.Fits ∧ AllBlank f ∧ (c = .close → p'.user.block = none ∧ p'.recovery.block = none) := by
  cases c with
  | setUser i =>
    obtain ⟨r, s, f, e, h1, h2, _⟩ := set_ok (hc i (Or.inl rfl)) hu
    unfold call
    dsimp only
    rw [e, ok_bind]
    exact ⟨_, _, rfl, h1, hr, h2, nofun⟩
  | setRecovery i =>
    obtain ⟨r, s, f, e, h1, h2, _⟩ := set_ok (hc i (Or.inr rfl)) hr
    unfold call
    dsimp only
    rw [e, ok_bind]
    exact ⟨_, _, rfl, hu, h1, h2, nofun⟩
  | close =>
    obtain ⟨n, f, e, h⟩ := clear_ok hu
    obtain ⟨m, g, e', h'⟩ := clear_ok hr
    unfold call
    dsimp only
    rw [e, ok_bind]
    dsimp only
    rw [e', ok_bind]
    exact ⟨_, _, rfl, fits_none _, fits_none _, allBlank_append h h', fun _ => ⟨rfl, rfl⟩⟩

theorem calls_ok (cs : List Call) (hc : ∀ i, .setUser i ∈ cs ∨ .setRecovery i ∈ cs → i.Fits) {p : Passwords} (hu : p.user.Fits) (hr : p.recovery.Fits) :
    ∃ p' f, calls p cs = ok (p', f) ∧ p'.user.Fits ∧ p'.recovery.Fits ∧ AllBlank f := by
  induction cs generalizing p with
  | nil => exact ⟨_, _, rfl, hu, hr, nofun⟩
  | cons c cs ih =>
    obtain ⟨p1, f, e, h1, h2, h3, _⟩ := call_ok hu hr c (fun i h => hc i (h.elim (fun h => Or.inl (h ▸ List.mem_cons_self)) (fun h => Or.inr (h ▸ List.mem_cons_self))))
    obtain ⟨p2, g, e', h1', h2', h3'⟩ := ih (fun i h => hc i (h.elim (fun h => Or.inl (List.mem_cons_of_mem _ h)) (fun h => Or.inr (List.mem_cons_of_mem _ h)))) h1 h2
    unfold calls
    rw [e, ok_bind]
    dsimp only
    rw [e', ok_bind]
    exact ⟨_, _, rfl, h1', h2', allBlank_append h3 h3'⟩

theorem fits_utf8 {mem : Bytes} {length n : Nat} (h : Volume.stringLength mem = ok n) (hl : length ≤ n + 1) (hm : length ≤ mem.length) (a : Bool) :
    (utf8Source mem length a).Fits := by
  constructor
  · exact ⟨some n, by unfold utf8Source; dsimp only; rw [h, ok_bind]⟩
  · intro n' hn
    unfold utf8Source at hn ⊢
    dsimp only at hn ⊢
    rw [h, ok_bind] at hn
    cases hn
    rw [rdN_le (by omega), ok_bind]
    have l : ((mem.drop 0).take length).length = length := by simp only [List.length_take, List.length_drop]; omega
    rw [l, if_neg (by omega)]
    exact ⟨_, _, rfl, by simp only [List.length_append, List.length_map, List.length_replicate, l]; omega⟩

theorem fits_utf16 {size : Option Nat} {copy : Nat → Bool × List (Option UInt8)} (h : ∀ n, (copy n).2.length = n) (a : Bool) : (utf16Source size copy a).Fits :=
  ⟨⟨_, rfl⟩, fun _ _ => ⟨_, _, rfl, h _⟩⟩

/-! ## Buffers of the functions that compute keys -/

theorem unwrapStep_fst (dec : Bytes → Bytes) (n round block : Nat) (buf : Bytes) :
    (∀ b l, unwrapStep dec n round block buf = ok (b, l) → Crypto.unwrapStep dec n round block buf = ok b) ∧
    (∀ b, Crypto.unwrapStep dec n round block buf = ok b → ∃ l, unwrapStep dec n round block buf = ok (b, l)) := by
  unfold unwrapStep Crypto.unwrapStep
  constructor
  · intro b l h
    obtain ⟨iv, e1, h⟩ := bind_eq_ok.1 h
    obtain ⟨r, e2, h⟩ := bind_eq_ok.1 h
    obtain ⟨x, e3, h⟩ := bind_eq_ok.1 h
    obtain ⟨y, e4, h⟩ := bind_eq_ok.1 h
    cases h
    rw [e1, ok_bind, e2, ok_bind]
    dsimp only
    rw [e3, ok_bind, e4]
  · intro b h
    obtain ⟨iv, e1, h⟩ := bind_eq_ok.1 h
    obtain ⟨r, e2, h⟩ := bind_eq_ok.1 h
    obtain ⟨x, e3, h⟩ := bind_eq_ok.1 h
    refine ⟨dec (xorBytes (toBE 8 (round * (n - 1) + block)) iv ++ r), ?_⟩
    rw [e1, ok_bind, e2, ok_bind]
    dsimp only
    rw [e3, ok_bind, h, ok_bind]

theorem unwrapBlocks_fst (dec : Bytes → Bytes) (n round : Nat) (k : Nat) (buf left : Bytes) (b : Bytes) (h : Crypto.unwrapBlocks dec n round k buf = ok b) :
    ∃ l, unwrapBlocks dec n round k buf left = ok (b, l) := by
  induction k generalizing buf left with
  | zero => cases h; exact ⟨_, rfl⟩
  | succ k ih =>
    unfold Crypto.unwrapBlocks at h
    obtain ⟨x, e, h⟩ := bind_eq_ok.1 h
    obtain ⟨l, e'⟩ := (unwrapStep_fst dec n round (k + 1) buf).2 x e
    unfold unwrapBlocks
    rw [e', ok_bind]
    exact ih x l h

theorem unwrapRounds_fst (dec : Bytes → Bytes) (n : Nat) (k : Nat) (buf left : Bytes) (b : Bytes) (h : Crypto.unwrapRounds dec n k buf = ok b) :
    ∃ l, unwrapRounds dec n k buf left = ok (b, l) := by
  induction k generalizing buf left with
  | zero => cases h; exact ⟨_, rfl⟩
  | succ k ih =>
    unfold Crypto.unwrapRounds at h
    obtain ⟨x, e, h⟩ := bind_eq_ok.1 h
    obtain ⟨l, e'⟩ := unwrapBlocks_fst dec n k (n - 1) buf left x e
    unfold unwrapRounds
    rw [e', ok_bind]
    exact ih x l h

/-- the first bytes of the key are in the second half of the block -/
def Shows (b l : Bytes) : Prop := (l.drop 8).take 8 = (b.drop 8).take 8

theorem unwrapStep_shows {dec : Bytes → Bytes} (hd : ∀ d, (dec d).length = 16) {n round : Nat} {buf b l : Bytes} (h : unwrapStep dec n round 1 buf = ok (b, l)) : Shows b l := by
  unfold unwrapStep at h
  obtain ⟨iv, e1, h⟩ := bind_eq_ok.1 h
  obtain ⟨r, e2, h⟩ := bind_eq_ok.1 h
  obtain ⟨x, e3, h⟩ := bind_eq_ok.1 h
  obtain ⟨y, e4, h⟩ := bind_eq_ok.1 h
  cases h
  unfold Shows
  generalize hD : dec _ = D at e3 e4 ⊢
  have lD : D.length = 16 := by rw [← hD]; exact hd _
  unfold wrN at e4
  split at e4
  · have := ok.inj e4
    rw [← this]
    have l8 : ((D.drop 8).take 8).length = 8 := by simp only [List.length_take, List.length_drop]; omega
    rename_i hx
    rw [l8] at hx
    generalize (D.drop 8).take 8 = A at l8
    rw [List.append_assoc, List.drop_left' (by rw [List.length_take]; omega), List.take_left' l8]
  · cases e4

theorem unwrapBlocks_shows {dec : Bytes → Bytes} (hd : ∀ d, (dec d).length = 16) {n round : Nat} (k : Nat) {buf left b l : Bytes}
    (h : unwrapBlocks dec n round (k + 1) buf left = ok (b, l)) : Shows b l := by
  induction k generalizing buf left with
  | zero =>
    unfold unwrapBlocks at h
    obtain ⟨⟨x, y⟩, e, h⟩ := bind_eq_ok.1 h
    cases h
    exact unwrapStep_shows hd e
  | succ k ih =>
    rw [unwrapBlocks] at h
    obtain ⟨⟨x, y⟩, e, h⟩ := bind_eq_ok.1 h
    exact ih h

theorem unwrapRounds_shows {dec : Bytes → Bytes} (hd : ∀ d, (dec d).length = 16) {n : Nat} (hn : 2 ≤ n) (k : Nat) {buf left b l : Bytes}
    (h : unwrapRounds dec n (k + 1) buf left = ok (b, l)) : Shows b l := by
  induction k generalizing buf left with
  | zero =>
    unfold unwrapRounds at h
    obtain ⟨⟨x, y⟩, e, h⟩ := bind_eq_ok.1 h
    cases h
    rw [show n - 1 = (n - 2) + 1 by omega] at e
    exact unwrapBlocks_shows hd _ e
  | succ k ih =>
    rw [unwrapRounds] at h
    obtain ⟨⟨x, y⟩, e, h⟩ := bind_eq_ok.1 h
    exact ih h

theorem keyUnwrap_shows {dec : Bytes → Bytes → Bytes} (hd : ∀ k d, (dec k d).length = 16) {key : Bytes} {bits : Nat} {w buf b : Bytes} (left : Bytes)
    (h : Crypto.keyUnwrap dec key bits w buf = ok b) : ∃ l, keyUnwrap dec key bits w buf left = ok (b, l) ∧ Shows b l := by
  unfold Crypto.keyUnwrap at h
  obtain ⟨_, g1, h⟩ := bind_eq_ok.1 h
  obtain ⟨_, g2, h⟩ := bind_eq_ok.1 h
  obtain ⟨_, g3, h⟩ := bind_eq_ok.1 h
  obtain ⟨_, g4, h⟩ := bind_eq_ok.1 h
  obtain ⟨_, g5, h⟩ := bind_eq_ok.1 h
  obtain ⟨_, g6, h⟩ := bind_eq_ok.1 h
  obtain ⟨k, g7, h⟩ := bind_eq_ok.1 h
  obtain ⟨x, g8, h⟩ := bind_eq_ok.1 h
  obtain ⟨l, e⟩ := unwrapRounds_fst (dec k) (w.length / 8) 6 x left b h
  refine ⟨l, ?_, unwrapRounds_shows (hd k) ?_ 5 e⟩
  · unfold keyUnwrap
    rw [g1, ok_bind, g2, ok_bind, g3, ok_bind, g4, ok_bind, g5, ok_bind, g6, ok_bind, g7, ok_bind, g8, ok_bind, e]
  · simp only [require_eq_ok] at g3 g4
    omega

theorem hashIterations_eq (prf : Bytes → Bytes → Bytes) (p s : Bytes) (n m : Nat) :
    hashIterations prf p n (Spec.pbkdf2U prf p s 1 m) = Spec.pbkdf2U prf p s 1 (m + n) := by
  induction n generalizing m with
  | zero => rfl
  | succ n ih =>
    unfold hashIterations
    rw [show m + (n + 1) = m + 1 + n by omega, ← ih (m + 1)]
    rfl

end Secrets
end Verif
