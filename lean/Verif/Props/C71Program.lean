import Verif.Props.C71
/-!
# C71: from the command line of fsapfsinfo to the files that it shows
-/
namespace Verif.Props
open Verif Res Spec BTree FsTree FileRead
open Verif.PathString (escaped ssizeMax)
open Verif.Mount (Mounted)
open Verif.Spec.Bodyfile (Each)
open Verif.Info (ascii)
open Verif.Spec.Info (ShowsFile OneLine)
open Verif.Program (Machine Options Selected)
open Verif.Spec.Decimal (Digit Numeral)

/-! The argument of `-E` -/

theorem identifierOption_all : Info.identifierOption (ascii "all") = ok none := by
  unfold Info.identifierOption
  rw [if_pos rfl]

theorem numeral_not_all {s : Bytes} {n : Nat} (h : Numeral s n) : s ≠ ascii "all" := by
  rintro rfl
  have := h.2.1 0x61 (by decide +kernel)
  revert this
  unfold Digit
  decide

/-- a numeral means the number, modulo 2⁶⁴; numbers that no file has are refused -/
theorem identifierOption_numeral {s : Bytes} {n : Nat} (h : Numeral s n) (hl : s.length ≤ 21) :
    Info.identifierOption s = if n % 2 ^ 64 < 2 ^ 60 then ok (some (n % 2 ^ 64)) else err := by
  unfold Info.identifierOption
  rw [if_neg (numeral_not_all h), decimal_numeral h hl, ok_bind]
  by_cases hn : n % 2 ^ 64 < 2 ^ 60
  · rw [if_pos hn, require_true (by omega), ok_bind]
  · rw [if_neg hn, require_false (by omega), err_bind]

/-- **C71, arguments.** A numeral of a number below 2⁶⁰ asks for the file with that identifier. Numbers that no identifier can be and strings that are not numerals are errors, and nothing is printed.

What is missing: numbers from 2⁶⁴ on, refuted by `c71_argument_wraps`, and signs. -/
theorem c71_argument_partial (g : Machine) (libraries : Files → Mounted) (clock : Int → Res Bytes) (o : Options) (source : Nat → Container.Image) {s : Bytes} :
    (∀ {n : Nat}, Numeral s n → s.length ≤ 21 → n < 2 ^ 60 → Info.identifierOption s = ok (some n)) ∧
    (∀ {n : Nat}, Numeral s n → s.length ≤ 21 → 2 ^ 60 ≤ n → n < 2 ^ 64 → Info.run g libraries clock o source (.identifier s) = ([], err)) ∧
    (Argument s → s ≠ ascii "all" → (¬ ∀ c ∈ s, Digit c) → (∀ c, s.head? = some c → c ≠ 0x2d ∧ c ≠ 0x2b) → Info.run g libraries clock o source (.identifier s) = ([], err)) := by
  refine ⟨?_, ?_, ?_⟩
  · intro n h hl hn
    rw [identifierOption_numeral h hl, Nat.mod_eq_of_lt (by omega), if_pos hn]
  · intro n h hl h1 h2
    unfold Info.run
    dsimp only
    rw [identifierOption_numeral h hl, Nat.mod_eq_of_lt h2, if_neg (by omega)]
    rfl
  · intro ha hall hd hs
    unfold Info.run Info.identifierOption
    dsimp only
    rw [if_neg hall, decimal_other ha (fun e => hd e.1) hs]
    rfl

/-- **C71, refuted: large numbers.** Numbers that differ by a multiple of 2⁶⁴ ask for the same file. -/
theorem c71_argument_wraps (g : Machine) (libraries : Files → Mounted) (clock : Int → Res Bytes) (o : Options) (source : Nat → Container.Image) {s t : Bytes} {n j : Nat} (hs : Numeral s n) (hl : s.length ≤ 21)
    (ht : Numeral t (n + 2 ^ 64 * j)) (hl' : t.length ≤ 21) : Info.run g libraries clock o source (.identifier t) = Info.run g libraries clock o source (.identifier s) := by
  unfold Info.run
  dsimp only
  rw [identifierOption_numeral hs hl, identifierOption_numeral ht hl', Nat.add_mul_mod_self_left]

/-- arguments are read without undefined behaviour -/
theorem c71_argument_safe {s : Bytes} (ha : Argument s) : Info.identifierOption s ≠ ub := by
  unfold Info.identifierOption
  split
  · exact nofun
  · cases h : Program.decimal (s ++ [0]) (s.length + 1) with
    | ub => exact absurd h (decimal_safe ha)
    | err => exact nofun
    | ok v =>
      rw [ok_bind]
      unfold require
      split <;> exact nofun

/-! The volume -/

theorem select_of_mount {g : Machine} {o : Options} {source : Nat → Container.Image} {v : Selected} (h : Program.mount g o source = ok v) : Info.select g o source = ok v := by
  obtain ⟨index, offset, h1, h2, h3, _⟩ := mount_ok h
  have h4 : Program.offsetOption o = ok offset := by
    unfold Program.offsetOption
    cases ho : o.offset with
    | none => rw [ho] at h2; exact h2
    | some t =>
      rw [ho] at h2
      dsimp only at h2 ⊢
      rw [h2]
  unfold Info.select
  rw [h1, ok_bind, h4, ok_bind]
  exact h3

/-- What fsapfsinfo shows about the files of a volume, of which `next` is the next free identifier: for an identifier that file, for an identifier that no file has an error, for `all` every file with an inode
once and in the order of identifiers, for a path the file that it leads to, and for a path that leads to no file an error. Of each file, the times of creation and modification are each shown as the other one. -/
structure InfoShows (run : Info.Asked → Out) (m : Mounted) (rs : List Record) (image : Nat → Option Bytes) (enc : Option (Bytes → Bytes → Bytes)) (V : View) (next : Nat) (read : Bytes → Option Int) : Prop where
  identifier : ∀ {s : Bytes} {v : VolumeFile}, Numeral s v.identifier → s.length ≤ 21 → KeepsFile m rs image enc v → OneLine v →
    ∃ text, run (.identifier s) = (Info.heading ++ block text, ok ()) ∧ ShowsFile read (·.fixed.created) (·.fixed.modified) v v.name none text
  missing : ∀ {s : Bytes} {i : Nat}, Numeral s i → s.length ≤ 21 → i < 2 ^ 60 → (∀ r ∈ rs, ¬ IsOf i 3 r) → run (.identifier s) = (Info.heading, err)
  all : next ≤ 2 ^ 60 → (∀ i < next, (∀ r ∈ rs, ¬ IsOf i 3 r) ∨ ∃ v, v.identifier = i ∧ KeepsFile m rs image enc v ∧ OneLine v) →
    ∃ vs texts, run (.identifier (ascii "all")) = (Info.heading ++ texts.flatMap block, ok ()) ∧ Each (fun v text => ShowsFile read (·.fixed.created) (·.fixed.modified) v v.name none text) vs texts ∧
      (vs.map (·.identifier)).Pairwise (· < ·) ∧ (∀ v ∈ vs, KeepsFile m rs image enc v) ∧ ∀ i, i ∈ vs.map (·.identifier) ↔ (i < next ∧ ∃ r ∈ rs, IsOf i 3 r)
  path : ∀ {t : List Nat} {z : Py.Seen}, Py.Text V ⟨2, none⟩ t (some z) → t ≠ [] → (Utf8.encode t).length ≤ (ssizeMax - 1) / 100 → OneLine (V.file z.identifier) →
    ∃ shown text, run (.path (t.flatMap (escaped .info))) = (pathBlock shown text, ok ()) ∧ Escape.unescape shown = some (t.flatMap (escaped .info)) ∧ (0x0a : UInt8) ∉ shown ∧
      ShowsFile read (·.fixed.created) (·.fixed.modified) (V.file z.identifier) (seenName V z) (z.entry.map (·.added)) text
  nowhere : ∀ {t : List Nat}, Py.Text V ⟨2, none⟩ t none → t ≠ [] → (Utf8.encode t).length ≤ (ssizeMax - 1) / 100 → run (.path (t.flatMap (escaped .info))) = ([], err)

theorem run_shows {g : Machine} {libraries : Files → Mounted} {clock : Int → Res Bytes} {o : Options} {source : Nat → Container.Image} {v : Selected} {F : Files} (h1 : Info.select g o source = ok v)
    (h2 : Info.filesOf g v = ok F) (hL : Libraries (libraries F)) {read : Bytes → Option Int} (hC : Clock clock read) {s : Storage} {xid : Nat} {rs : List Record} {image : Nat → Option Bytes}
    {cipher : Option (Cipher × Cipher)} {V : View} (hS : Mounts (libraries F) s xid rs image cipher V) {next : Nat} (hnext : VolumeOpen.getNextIdentifier v.obtained.volume = next) :
    InfoShows (Info.run g libraries clock o source) (libraries F) rs image (cipher.map (·.1)) V next read := by
  have hT := hS.fileTree
  refine ⟨?_, ?_, ?_, ?_, ?_⟩
  · intro s v hs hl hK ho
    have hid : v.identifier < 2 ^ 60 := hK.file.identifier
    obtain ⟨text, k1, k2⟩ := c71_identifier_partial (clock := clock) hL hC hT hK ho
    refine ⟨text, ?_, k2⟩
    unfold Info.run
    simp only [Out.need]
    rw [identifierOption_numeral hs hl, Nat.mod_eq_of_lt (by omega), if_pos hid]
    simp only
    rw [h1]
    simp only
    rw [h2]
    simp only
    rw [k1, andThen_ok]
  · intro s i hs hl hi hno
    unfold Info.run
    simp only [Out.need]
    rw [identifierOption_numeral hs hl, Nat.mod_eq_of_lt (by omega), if_pos hi]
    simp only
    rw [h1]
    simp only
    rw [h2]
    simp only
    rw [c71_missing hT hi hno, andThen_ok]
    simp
  · intro hle h
    obtain ⟨vs, texts, k1, k2⟩ := c71_all_partial (clock := clock) hL hC hT hle h
    refine ⟨vs, texts, ?_, k2⟩
    unfold Info.run
    simp only [Out.need]
    rw [identifierOption_all]
    simp only
    rw [h1]
    simp only
    rw [hnext]
    by_cases h0 : next = 0
    · subst h0
      rw [if_pos rfl, andThen_ok]
      rw [show (texts.flatMap block : Bytes) = [] from (Prod.mk.inj k1).1.symm]
    · rw [if_neg h0, h2]
      simp only
      rw [k1, andThen_ok]
  · intro t z ht h0 hl ho
    obtain ⟨shown, text, k1, k2⟩ := c71_path_partial (clock := clock) hL hC hS ht h0 hl (by rintro _ ⟨⟩; exact ho)
    refine ⟨shown, text, ?_, k2⟩
    unfold Info.run
    simp only [Out.need]
    rw [h1]
    simp only
    rw [h2]
    exact k1
  · intro t ht h0 hl
    have := c71_path_partial (clock := clock) hL hC hS ht h0 hl (fun _ h => nomatch h)
    unfold Info.run
    simp only [Out.need]
    rw [h1]
    simp only
    rw [h2]
    exact this

section
open Container VolumeOpen
variable {img : Container.Image} {k : Container.Opened} {d0 d : Bytes} {records files : List Record}

/-- **C71, from the command line to the values, without encryption.** If the options name a container and an unencrypted volume of it, fsapfsinfo shows the files that the image of the container stores.

What is missing: as in `c71_identifier_partial`, `c71_all_partial`, `c71_path_partial` and `c50_reach_partial`. -/
theorem c71_volume_partial {m : Machine} {o : Options} {source : Nat → Container.Image} {at_ index : Nat} (ha : StartsAt o at_) (himg : source at_ = img) (hopen : Container.openRead m.xts m.vector img = ok k)
    (hn : Names o (numberOfVolumes k) index) (hp1 : ∀ s, o.password = some s → Passphrase s) (hp2 : ∀ s, o.recovery = some s → Passphrase s)
    (hb : Blocks img) (hs : k.superblock = Container.superblockOf d0) (hv : Nx.Valid d0) (hvec : m.vector k.size = true)
    (ht : OmTree (containerBlocks img k.size) k.tree records) (hi : index < numberOfVolumes k) (h0 : Nx.volume d0 index ≠ 0) {root : Nat} {vs : List SnapValue}
    (hr : ∀ r, Newest records (Nx.volume d0 index) (objectXid d0) r → StoredVolume img (field r.2 8 8) d root) (hx : HasVersion records (Nx.volume d0 index) (objectXid d0))
    (hsn : HasSnapshots (containerBlocks img k.size) root d vs) (hun : k.keyBag = none ∨ Apsb.unencrypted d)
    {mappings : List Record} (hm : OmTree (containerBlocks img k.size) root mappings) (hrx : HasVersion mappings (Apsb.fsRoot d) (objectXid d))
    (hfs : ∀ r, Newest mappings (Apsb.fsRoot d) (objectXid d) r → FsHolds (plainStorage img k.size root (field r.2 8 8)) (objectXid d) files)
    {V : View} (hfold : V.format.caseInsensitive = true ↔ Apsb.incompatible d % 2 = 1) {c : Codec} (hV : VolumeHas c files (dataBlocks img) none V)
    {clock : Int → Res Bytes} {read : Bytes → Option Int} (hC : Clock clock read) {libraries : Files → Mounted}
    (hL : ∀ F, (libraries F).files = F ∧ (libraries F).unpack = c ∧ Libraries (libraries F) ∧ ∀ i, Reach V.dirs i → Compares (libraries F).compare (V.file i).stored) :
    ∃ F, InfoShows (Info.run m libraries clock o source) (libraries F) files (dataBlocks img) none V (Apsb.nextIdentifier d) read := by
  obtain ⟨v, h1, _, _, _, hl, _, _, _⟩ := c50_opens_partial (c := m.cipher) hb hs hv hvec ht hi h0 hr hx hsn hun
  obtain ⟨s, hrun, hls⟩ := run_unlocked (m := m) (o := o) hl
  obtain ⟨v', h1', h2, h3⟩ := c50_reach_partial (c := m.cipher) hb hs hv hvec ht hi h0 hr hx hsn hun hm hrx hfs m.prims (callsOf m o)
  rw [h1] at h1'
  cases h1'
  obtain ⟨_, h4, t, h5, h6⟩ := h3 s hrun
  subst himg
  obtain ⟨F, hF1, hF2⟩ : ∃ F, FileRead.files m.cipher (source at_) k v s = ok F ∧ F = { disk := (storage m.cipher (readBytes (source at_)) (context s)).1, xts := (storage m.cipher (readBytes (source at_)) (context s)).2, tree := volumeOf t, xid := v.superblock.transaction, folding := decide (v.superblock.incompatible % 2 ≠ 0) } := by
    unfold FileRead.files
    rw [h5, ok_bind]
    exact ⟨_, rfl, rfl⟩
  refine ⟨F, ?_⟩
  obtain ⟨l1, l2, l3, l4⟩ := hL F
  refine run_shows (cipher := none) (select_of_mount (mount_of ha hopen hn hi (getVolume_of_calls hp1 hp2 h1 hrun hls) hls)) hF1 l3 hC (s := t) (xid := objectXid d) ⟨?_, ?_, h6, ?_, l4⟩ ?_
  · rw [l1, hF2]
    refine ⟨rfl, ?_, ?_, ?_, ?_, fun _ h => nomatch h⟩
    · show v.superblock.transaction = _
      rw [h2]
      rfl
    · show (storage m.cipher (readBytes (source at_)) (context s)).2 = none
      unfold context
      rw [h4]
      rfl
    · intro b raw hraw
      show (storage m.cipher (readBytes (source at_)) (context s)).1 _ _ = _
      unfold context
      rw [h4]
      exact readBytes_block hraw
    · exact fun b raw hraw => (dataBlocks_some hraw).2.2
  · rw [l1, hF2]
    show decide (v.superblock.incompatible % 2 ≠ 0) = _
    rw [h2]
    exact folding_bit hfold
  · rw [l2]
    exact hV
  · show v.superblock.nextIdentifier = _
    rw [h2]
    rfl

/-- **C71, from the command line to the values, with a password.** If the options name a container and an encrypted volume of it, and one of the passwords is correct, fsapfsinfo shows the files that the image of
the container stores in encrypted form.

What is missing: as in `c71_volume_partial` and `c51_reach_partial`. -/
theorem c71_encrypted_partial {m : Machine} {enc : Bytes → Bytes → Bytes} (hpr : KeyBag.PrimsOk m.prims enc) (hvk : m.volumeKey.length = 32) (hmk : m.masterKey.length = 32)
    {o : Options} {source : Nat → Container.Image} {at_ index : Nat} (ha : StartsAt o at_) (himg : source at_ = img) (hopen : Container.openRead m.xts m.vector img = ok k)
    (hn : Names o (numberOfVolumes k) index) (hp1 : ∀ s, o.password = some s → Passphrase s) (hp2 : ∀ s, o.recovery = some s → Passphrase s)
    {encX : Bytes × Bytes → Bytes → Bytes → Bytes}
    (hX : ∀ ks, TweakableCipher 512 (encX ks) (m.cipher.xts ks)) (hb : Blocks img) (hs : k.superblock = Container.superblockOf d0) (hv : Nx.Valid d0) (hvec : m.vector k.size = true)
    (ht : OmTree (containerBlocks img k.size) k.tree records) (hi : index < numberOfVolumes k) (h0 : Nx.volume d0 index ≠ 0) {root : Nat} {vs : List SnapValue}
    (hr : ∀ r, Newest records (Nx.volume d0 index) (objectXid d0) r → StoredVolume img (field r.2 8 8) d root) (hx : HasVersion records (Nx.volume d0 index) (objectXid d0))
    (hsn : HasSnapshots (containerBlocks img k.size) root d vs) {cb vb : List BagEntry} (hkb : k.keyBag = some (some (entriesOf cb))) (he : EncryptedVolume encX img cb vb d)
    {S : Bytes → Prop} {vk : Bytes} {keys : Bytes × Bytes} (hsec : Secrets m.prims.prf enc m.prims.sha vb cb (Apsb.uuid d) S vk keys) {mappings : List Record}
    (hm : OmTree (containerBlocks img k.size) root mappings) (hrx : HasVersion mappings (Apsb.fsRoot d) (objectXid d)) {plain : Nat → Option Bytes}
    (hpl : EncryptedBlocks (encX keys) img plain) (hrange : ∀ b d, plain b = some d → b * 4096 < k.size ∧ b < 2 ^ 31)
    (hfs : ∀ r, Newest mappings (Apsb.fsRoot d) (objectXid d) r → FsHolds (encryptedStorage img plain k.size root (field r.2 8 8)) (objectXid d) files)
    {V : View} (hfold : V.format.caseInsensitive = true ↔ Apsb.incompatible d % 2 = 1) {c : Codec} (hV : VolumeHas c files (dataBlocks img) (some (encX keys)) V)
    (hS : ∀ s, o.password = some s ∨ o.recovery = some s → S s) {pw : Bytes} (hpw : o.password = some pw ∨ o.recovery = some pw) (hsecret : IsSecret m.prims.prf enc vb pw)
    {clock : Int → Res Bytes} {read : Bytes → Option Int} (hC : Clock clock read) {libraries : Files → Mounted}
    (hL : ∀ F, (libraries F).files = F ∧ (libraries F).unpack = c ∧ Libraries (libraries F) ∧ ∀ i, Reach V.dirs i → Compares (libraries F).compare (V.file i).stored) :
    ∃ F, InfoShows (Info.run m libraries clock o source) (libraries F) files (dataBlocks img) (some (encX keys)) V (Apsb.nextIdentifier d) read := by
  obtain ⟨v, h1, _, h2, h3⟩ := c51_reach_partial (c := m.cipher) hpr hX hb hs hv hvec ht hi h0 hr hx hsn hkb he hsec hm hrx hpl hrange hfs
  obtain ⟨d1, d2⟩ := callsOf_ok (m := m) hvk hmk hp1 hp2
  obtain ⟨s, hrun, hls⟩ := unlocked_calls hvk hmk hp1 hp2 (fun ops g1 g2 s g3 => (h3 ops g1 g2 s g3).1) hS hpw hsecret
  obtain ⟨hb1, hb2, t, h5, h6⟩ := (h3 (callsOf m o) d1 (fun q h => hS q (d2 q h)) s hrun).2 hls
  have hctx : context s = some (some keys) := by
    unfold context
    rw [hb1, hb2]
    rfl
  subst himg
  obtain ⟨F, hF1, hF2⟩ : ∃ F, FileRead.files m.cipher (source at_) k v s = ok F ∧ F = { disk := (storage m.cipher (readBytes (source at_)) (context s)).1, xts := (storage m.cipher (readBytes (source at_)) (context s)).2, tree := volumeOf t, xid := v.superblock.transaction, folding := decide (v.superblock.incompatible % 2 ≠ 0) } := by
    unfold FileRead.files
    rw [h5, ok_bind]
    exact ⟨_, rfl, rfl⟩
  refine ⟨F, ?_⟩
  obtain ⟨l1, l2, l3, l4⟩ := hL F
  refine run_shows (cipher := some (encX keys, m.cipher.xts keys)) (select_of_mount (mount_of ha hopen hn hi (getVolume_of_calls hp1 hp2 h1 hrun hls) hls)) hF1 l3 hC (s := t) (xid := objectXid d) ⟨?_, ?_, h6, ?_, l4⟩ ?_
  · rw [l1, hF2]
    refine ⟨rfl, ?_, ?_, ?_, ?_, ?_⟩
    · show v.superblock.transaction = _
      rw [h2]
      rfl
    · show (storage m.cipher (readBytes (source at_)) (context s)).2 = _
      rw [hctx]
      rfl
    · intro b raw hraw
      show (storage m.cipher (readBytes (source at_)) (context s)).1 _ _ = _
      rw [hctx]
      exact readBytes_block hraw
    · exact fun b raw hraw => (dataBlocks_some hraw).2.2
    · intro c hc
      cases hc
      exact hX keys
  · rw [l1, hF2]
    show decide (v.superblock.incompatible % 2 ≠ 0) = _
    rw [h2]
    exact folding_bit hfold
  · rw [l2]
    exact hV
  · show v.superblock.nextIdentifier = _
    rw [h2]
    rfl

end
end Verif.Props
