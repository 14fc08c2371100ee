import Verif.Props.C72Program
/-!
# C72, what can be read from the output of fsapfsinfo about a container, and what cannot
-/
namespace Verif.Props
open Verif Res Spec BTree FsTree FileRead
open Verif.PathString (cString number_decimal)
open Verif.Info (ascii line openSnapshot snapshotsOut volumeOut volumesOut containerOut)
open Verif.Program (Machine Options Obtained)
open Verif.Spec.Decimal (Numeral)
open Verif.Spec.Info (chars ShownVolume ShownContainer uuidOf hexOf FlagsAre compatibleNames incompatibleNames features ShowsSnapshots ShowsVolume ShowsVolumes ShowsContainer)

/-! There is one way to read the output -/

theorem chars_inj : ∀ {a b : Bytes}, chars a = chars b → a = b
  | [], [], _ => rfl
  | [], _ :: _, h => by cases h
  | _ :: _, [], h => by cases h
  | x :: a, y :: b, h => by
    unfold chars at h
    simp only [List.map_cons, List.cons.injEq] at h
    have : ∀ x y : UInt8, Char.ofNat x.toNat = Char.ofNat y.toNat → x = y := by
      intro x y h
      have hx := x.toNat_lt
      have hy := y.toNat_lt
      have e : ∀ n, n < 256 → (Char.ofNat n).toNat = n := by
        intro n hn
        unfold Char.ofNat
        rw [dif_pos (Or.inl (by omega))]
        rfl
      have := congrArg Char.toNat h
      rw [e _ (by omega), e _ (by omega)] at this
      exact UInt8.toNat_inj.1 this
    rw [this x y h.1, chars_inj (a := a) (b := b) h.2]

theorem infoName_inj {a b : List Nat} (ha : PathString.Name a) (hb : PathString.Name b) (h : chars (Utf8.encode a) = chars (Utf8.encode b)) : a = b :=
  PathString.encode_inj a b (fun c hc => (ha c hc).1) (fun c hc => (hb c hc).1) (chars_inj h)

/-- the names shown for a volume are text -/
def TextVolume (v : ShownVolume) : Prop := PathString.Name v.name ∧ ∀ s ∈ v.snapshots, PathString.Name s

theorem showsSnapshots_unique : ∀ {k : Nat} {a b : List (List Nat)} {la lb ra rb : List (List Char)}, ShowsSnapshots k a la → ShowsSnapshots k b lb → a.length = b.length → (∀ s ∈ a, PathString.Name s) →
    (∀ s ∈ b, PathString.Name s) → la ++ ra = lb ++ rb → a = b ∧ ra = rb
  | _, [], [], _, _, _, _, .nil _, .nil _, _, _, _, h => ⟨rfl, h⟩
  | _, [], _ :: _, _, _, _, _, _, _, hl, _, _, _ => by cases hl
  | _, _ :: _, [], _, _, _, _, _, _, hl, _, _, _ => by cases hl
  | _, x :: a, y :: b, _, _, _, _, .cons _ h1, .cons _ h2, hl, na, nb, h => by
    simp only [List.cons_append, List.cons.injEq, List.append_cancel_left_eq] at h
    obtain ⟨e, r⟩ := showsSnapshots_unique h1 h2 (by simpa using hl) (fun s hs => na s (List.mem_cons_of_mem _ hs)) (fun s hs => nb s (List.mem_cons_of_mem _ hs)) h.2.2
    rw [e, infoName_inj (na x List.mem_cons_self) (nb y List.mem_cons_self) h.2.1]
    exact ⟨rfl, r⟩

theorem locked_unique {a b : Bool} {x y : List Char} {ra rb : List (List Char)}
    (h : (if a then ["\tIs locked".toList] else []) ++ (("\tNumber of snapshots\t\t: ".toList ++ x) :: ra) = (if b then ["\tIs locked".toList] else []) ++ (("\tNumber of snapshots\t\t: ".toList ++ y) :: rb)) :
    a = b ∧ x = y ∧ ra = rb := by
  cases a <;> cases b <;> simp at h ⊢
  all_goals exact h

theorem showsVolume_unique {k : Nat} {a b : ShownVolume} {la lb ra rb : List (List Char)} (ha : ShowsVolume k a la) (hb : ShowsVolume k b lb) (na : TextVolume a) (nb : TextVolume b) (h : la ++ ra = lb ++ rb) :
    a = b ∧ ra = rb := by
  obtain ⟨_, ua, ca, ia, roa, sa, ssa, rfl, _, a2, a3, a4, a5, a6, a7⟩ := ha
  obtain ⟨_, ub, cb, ib, rob, sb, ssb, rfl, _, b2, b3, b4, b5, b6, b7⟩ := hb
  simp only [List.append_assoc, List.cons_append, List.nil_append, List.cons.injEq, true_and, List.append_cancel_left_eq] at h
  obtain ⟨_, hu, hn, hc, h⟩ := h
  have ec : a.compatible = b.compatible := by
    have := a3.1
    rw [chars_inj hc, b3.1] at this
    exact (Option.some.inj this).symm
  rw [ec] at h
  simp only [List.append_cancel_left_eq, List.cons.injEq, true_and] at h
  obtain ⟨hi, h⟩ := h
  have ei : a.incompatible = b.incompatible := by
    have := a4.1
    rw [chars_inj hi, b4.1] at this
    exact (Option.some.inj this).symm
  rw [ei] at h
  simp only [List.append_cancel_left_eq, List.cons.injEq, true_and] at h
  obtain ⟨hr, h⟩ := h
  have er : a.readOnlyCompatible = b.readOnlyCompatible := by
    have := a5.1
    rw [chars_inj hr, b5.1] at this
    exact (Option.some.inj this).symm
  obtain ⟨el, es, h⟩ := locked_unique h
  have hl : a.snapshots.length = b.snapshots.length := by
    rw [chars_inj es, b6] at a6
    exact (Option.some.inj a6).symm
  obtain ⟨ess, h⟩ := showsSnapshots_unique a7 b7 hl na.2 nb.2 h
  have eu : a.uuid = b.uuid := by
    rw [chars_inj hu, b2] at a2
    exact (Option.some.inj a2).symm
  have en := infoName_inj na.1 nb.1 hn
  refine ⟨?_, h⟩
  cases a
  cases b
  simp only at ec ei er el ess eu en
  rw [ec, ei, er, el, ess, eu, en]

theorem showsVolumes_unique : ∀ {k : Nat} {a b : List ShownVolume} {la lb ra rb : List (List Char)}, ShowsVolumes k a la → ShowsVolumes k b lb → a.length = b.length → (∀ v ∈ a, TextVolume v) →
    (∀ v ∈ b, TextVolume v) → la ++ ra = lb ++ rb → a = b ∧ ra = rb
  | _, [], [], _, _, _, _, .nil _, .nil _, _, _, _, h => ⟨rfl, h⟩
  | _, [], _ :: _, _, _, _, _, _, _, hl, _, _, _ => by cases hl
  | _, _ :: _, [], _, _, _, _, _, _, hl, _, _, _ => by cases hl
  | _, x :: a, y :: b, _, _, _, _, .cons f1 h1, .cons f2 h2, hl, na, nb, h => by
    rw [List.append_assoc, List.append_assoc] at h
    obtain ⟨e1, h⟩ := showsVolume_unique f1 f2 (na x List.mem_cons_self) (nb y List.mem_cons_self) h
    obtain ⟨e2, r⟩ := showsVolumes_unique h1 h2 (by simpa using hl) (fun s hs => na s (List.mem_cons_of_mem _ hs)) (fun s hs => nb s (List.mem_cons_of_mem _ hs)) h
    rw [e1, e2]
    exact ⟨rfl, r⟩

theorem showsVolumes_head {k : Nat} {vs : List ShownVolume} {ls : List (List Char)} (h : ShowsVolumes k vs ls) : (ls ++ [[]]).head? = some [] := by
  cases h with
  | nil => rfl
  | cons f _ =>
    obtain ⟨_, _, _, _, _, _, _, h, _⟩ := f
    rw [h]
    rfl

/-- **C72, the output can be read.** A text shows at most one list of volumes with text for names, for one identifier of a container; with volumes, it also tells if the container is locked. -/
theorem c72_readable {a b : ShownContainer} {text : Bytes} (ha : ShowsContainer a text) (hb : ShowsContainer b text) (na : ∀ v ∈ a.volumes, TextVolume v) (nb : ∀ v ∈ b.volumes, TextVolume v) : a = b := by
  obtain ⟨ua, ca, va, h1, a1, a2, a3⟩ := ha
  obtain ⟨ub, cb, vb, h2, b1, b2, b3⟩ := hb
  rw [h1] at h2
  simp only [List.append_assoc, List.cons_append, List.nil_append, List.cons.injEq, true_and, List.append_cancel_left_eq] at h2
  obtain ⟨hu, hc, h⟩ := h2
  have eu : a.uuid = b.uuid := by
    rw [chars_inj hu, b1] at a1
    exact (Option.some.inj a1).symm
  have en : a.volumes.length = b.volumes.length := by
    rw [chars_inj hc, b2] at a2
    exact (Option.some.inj a2).symm
  have first : ∀ {vs : List ShownVolume} {ls : List (List Char)} {x : List Char} {rest : List (List Char)}, ShowsVolumes 0 vs ls → x ≠ [] → ls ++ [[]] = x :: rest → False :=
    fun hs hx he => hx (Option.some.inj ((congrArg List.head? he).symm.trans (showsVolumes_head hs)))
  have el : a.locked = b.locked := by
    cases ea : a.locked <;> cases eb : b.locked
    · rfl
    · rw [ea, eb] at h
      exact (first (x := "\tIs locked (uses hardware encryption)".toList) (rest := vb ++ [[]]) a3 (by decide +kernel) h).elim
    · rw [ea, eb] at h
      exact (first (x := "\tIs locked (uses hardware encryption)".toList) (rest := va ++ [[]]) b3 (by decide +kernel) h.symm).elim
    · rfl
  rw [el] at h
  have h := List.append_cancel_left h
  obtain ⟨ev, _⟩ := showsVolumes_unique a3 b3 en na nb h
  cases a
  cases b
  simp only at eu el ev
  rw [eu, el, ev]

/-! What fails -/

variable {g : Machine} {una : Bytes → Res Bytes} {o : Options} {image : Container.Image} {k : Container.Opened}

/-- **C72, refuted: line feeds in names.** Two lists of snapshots with other names are shown in the same way: the name of one contains the line that is printed before a name. -/
theorem c72_forged (hu : ReadsText una) {a b c : List Nat} (ha : PathString.Name a) (hb : PathString.Name b) (hc : PathString.Name c) {m1 m2 m1' m2' : Snapshot.Metadata}
    (h1 : m1.utf8Name = ok (Utf8.encode (a ++ "\n\tSnapshot: 2 information:\n\t\tName\t\t\t: ".toList.map Char.toNat ++ b))) (h2 : m2.utf8Name = ok (Utf8.encode c))
    (h1' : m1'.utf8Name = ok (Utf8.encode a)) (h2' : m2'.utf8Name = ok (Utf8.encode (b ++ "\n\tSnapshot: 2 information:\n\t\tName\t\t\t: ".toList.map Char.toNat ++ c)))
    (ho : ∀ m ∈ [m1, m2, m1', m2'], ∃ s, openSnapshot image m = ok s) :
    ∃ text, snapshotsOut una image 0 [m1, m2] = (text, ok ()) ∧ snapshotsOut una image 0 [m1', m2'] = (text, ok ()) := by
  have hsep : PathString.Name ("\n\tSnapshot: 2 information:\n\t\tName\t\t\t: ".toList.map Char.toNat) := by
    intro c hc
    have : ∀ c ∈ "\n\tSnapshot: 2 information:\n\t\tName\t\t\t: ".toList.map Char.toNat, c < 0x80 ∧ c ≠ 0 := by decide +kernel
    have := this c hc
    refine ⟨?_, this.2⟩
    unfold Scalar
    omega
  have app : ∀ {x y : List Nat}, PathString.Name x → PathString.Name y → PathString.Name (x ++ "\n\tSnapshot: 2 information:\n\t\tName\t\t\t: ".toList.map Char.toNat ++ y) := by
    intro x y hx hy c hc
    rcases List.mem_append.1 hc with hc | hc
    · rcases List.mem_append.1 hc with hc | hc
      · exact hx c hc
      · exact hsep c hc
    · exact hy c hc
  have hs : Utf8.encode ("\n\tSnapshot: 2 information:\n\t\tName\t\t\t: ".toList.map Char.toNat) = ascii "\n\tSnapshot: 2 information:\n\t\tName\t\t\t: " := by decide +kernel
  have one : ∀ {m : Snapshot.Metadata} {n : List Nat} {i : Nat} {ms : List Snapshot.Metadata} {t : Bytes}, PathString.Name n → m.utf8Name = ok (Utf8.encode n) → (∃ s, openSnapshot image m = ok s) →
      snapshotsOut una image (i + 1) ms = (t, ok ()) →
      snapshotsOut una image i (m :: ms) = ((ascii "\tSnapshot: " ++ PathString.decimal (i + 1) ++ ascii " information:\n" ++ ascii "\t\tName\t\t\t: ") ++ ((Utf8.encode n ++ [0x0a]) ++ t), ok ()) := by
    intro m n i ms t hn hm hs ht
    obtain ⟨s, hs⟩ := hs
    rw [snapshotsOut]
    refine need_eq.2 ⟨s, hs, andThen_eq.2 ⟨_, _, rfl, need_eq.2 ⟨_, by rw [hm]; exact hu n hn, andThen_eq.2 ⟨_, _, rfl, ht, rfl⟩⟩, ?_⟩⟩
    rw [PathString.cString_eq (encode_nonzero hn)]
  refine ⟨_, one (app ha hb) h1 (ho _ (by simp)) (one hc h2 (ho _ (by simp)) rfl), ?_⟩
  rw [one ha h1' (ho _ (by simp)) (one (app hb hc) h2' (ho _ (by simp)) rfl)]
  congr 1
  rw [encode_append, encode_append, encode_append, encode_append, hs, show PathString.decimal (0 + 1 + 1) = [0x32] from by decide +kernel, show PathString.decimal (0 + 1) = [0x31] from by decide +kernel,
    show ascii "\n\tSnapshot: 2 information:\n\t\tName\t\t\t: " = [0x0a] ++ (ascii "\tSnapshot: " ++ [0x32] ++ ascii " information:\n" ++ ascii "\t\tName\t\t\t: ") from by decide +kernel]
  simp only [List.append_assoc]

/-- **C72, refuted: one volume ends the list.** If a volume cannot be opened, or something about it cannot be shown, no volume behind it is shown. -/
theorem c72_stops (count index : Nat) :
    (∀ e, Info.getVolume g o image k (index : Int) = e → (∀ r, e ≠ ok r) → (volumesOut g una o image k (count + 1) index).1 = [] ∧ (volumesOut g una o image k (count + 1) index).2 ≠ ok ()) ∧
    ∀ r, Info.getVolume g o image k (index : Int) = ok r → (volumeOut una image index r).2 ≠ ok () → volumesOut g una o image k (count + 1) index = volumeOut una image index r := by
  constructor
  · intro e he hne
    rw [volumesOut, he]
    cases e with
    | ok r => exact absurd rfl (hne r)
    | err => exact ⟨rfl, nofun⟩
    | ub => exact ⟨rfl, nofun⟩
  · intro r he hne
    rw [volumesOut, he]
    unfold Out.need
    dsimp only
    generalize volumeOut una image index r = q at hne ⊢
    obtain ⟨t, x⟩ := q
    cases x with
    | ok u => exact absurd rfl hne
    | err => rfl
    | ub => rfl

/-- **C72, refuted: snapshots.** A snapshot whose superblock cannot be read, though nothing of it is shown, ends the list. -/
theorem c72_snapshot_unreadable {i : Nat} {m : Snapshot.Metadata} {ms : List Snapshot.Metadata} (h : openSnapshot image m = err) : snapshotsOut una image i (m :: ms) = ([], err) := by
  rw [snapshotsOut, h]
  rfl

/-- **C72, refuted: names without end.** For a snapshot whose stored name has no zero at its end, fsapfsinfo reads behind the name. -/
theorem c72_snapshot_overread {i : Nat} {m : Snapshot.Metadata} {ms : List Snapshot.Metadata} {s : VolumeOpen.Superblock} (ho : openSnapshot image m = ok s) (h0 : (0 : UInt8) ∉ m.name) (h : m.name.length < 256) :
    (snapshotsOut una image i (m :: ms)).2 = ub := by
  rw [snapshotsOut, ho]
  unfold Out.need
  dsimp only
  rw [c35_name_overread m h0 h]
  rfl

/-- **C72, refuted: one volume.** With the option `-f` and the number of a volume, all volumes are shown as without it. -/
theorem c72_index_ignored (source : Nat → Container.Image) {s : Bytes} {n : Nat} (hs : Numeral s n) (hl : s.length ≤ 21) (h1 : 1 ≤ n) (h2 : n ≤ 100) :
    Info.list g una { o with index := some s } source = Info.list g una { o with index := none } source := by
  have hm : n % 2 ^ 64 = n := Nat.mod_eq_of_lt (by omega)
  have i1 : Program.indexOption { o with index := some s } = ok n := by
    unfold Program.indexOption
    dsimp only
    rw [setIndex_numeral hs hl (by omega) (by omega), hm]
  have i2 : Program.indexOption { o with index := none } = ok 0 := rfl
  have hoff : Program.offsetOption { o with index := some s } = Program.offsetOption { o with index := none } := rfl
  unfold Info.list
  rw [i1, i2, hoff]
  have hvol : ∀ image k count index, volumesOut g una { o with index := some s } image k count index = volumesOut g una { o with index := none } image k count index := by
    intro image k count
    induction count with
    | zero => intro index; rfl
    | succ count ih =>
      intro index
      rw [volumesOut, volumesOut, ih]
      rfl
  unfold Out.need
  dsimp only
  cases Program.offsetOption { o with index := none } with
  | ok offset =>
    dsimp only
    cases Program.openAt g source offset with
    | ok p =>
      dsimp only
      unfold containerOut
      rw [hvol]
    | err => rfl
    | ub => rfl
  | err => rfl
  | ub => rfl

end Verif.Props
