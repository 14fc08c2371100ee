import Verif.Model.AttributeRead
import Verif.Lemmas.FileEntry
import Verif.Lemmas.FileEntryHistory
/-! # Lemmas about reading extended attributes -/
namespace Verif
open Res Spec
namespace AttributeRead
open DataStream (Extent streamRead initHandle)
open Records (Attribute)

/-- the same, or an error -/
def OrErr (r' r : Res α) : Prop := r' = err ∨ r' = r

theorem OrErr.refl {r : Res α} : OrErr r r := Or.inr rfl

theorem OrErr.bind {r' r : Res α} {g' g : α → Res β} (h : OrErr r' r) (hg : ∀ a, OrErr (g' a) (g a)) : OrErr (r' >>= g') (r >>= g) := by
  rcases h with h | h
  · exact Or.inl (by rw [h]; rfl)
  · subst h
    cases r' with
    | ok a => exact hg a
    | err => exact .refl
    | ub => exact .refl

theorem readBlock_orErr (h : DataStream.Handle) {disk : Nat → Nat → Res Bytes} (hd : ∀ o n, OrErr (disk o n) (h.disk o n)) (s : DataStream.Segment) (o size : Nat) :
    OrErr (DataStream.readBlock { h with disk := disk } s o size) (DataStream.readBlock h s o size) := by
  unfold DataStream.readBlock
  split
  · exact .refl
  split
  · exact .refl
  simp only
  split
  · exact .refl
  · exact .bind .refl fun _ => .bind (hd _ _) fun _ => .refl

theorem blockAt_orErr (h : DataStream.Handle) {disk : Nat → Nat → Res Bytes} (hd : ∀ o n, OrErr (disk o n) (h.disk o n)) (off : Nat) :
    OrErr (DataStream.blockAt { h with disk := disk } off) (DataStream.blockAt h off) := by
  unfold DataStream.blockAt
  simp only
  split
  · exact .refl
  · exact .bind (readBlock_orErr h hd _ _ _) fun _ => .refl

theorem readLoop_orErr {b' b : Nat → Res (Bytes × Nat)} (hb : ∀ off, OrErr (b' off) (b off)) (total : Nat) (m : Nat) :
    ∀ n ≤ m, ∀ off, OrErr (DataStream.readLoop b' total off n) (DataStream.readLoop b total off n) := by
  induction m with
  | zero =>
    intro n hn off
    unfold DataStream.readLoop
    rw [dif_pos (by omega), dif_pos (by omega)]
    exact .refl
  | succ m ih =>
    intro n hn off
    rw [DataStream.readLoop, DataStream.readLoop]
    by_cases h0 : n = 0
    · rw [dif_pos h0, dif_pos h0]; exact .refl
    rw [dif_neg h0, dif_neg h0]
    rcases hb off with h | h
    · rw [h]; exact Or.inl rfl
    rw [h]
    cases b off with
    | err => exact .refl
    | ub => exact .refl
    | ok x =>
      obtain ⟨x, bo⟩ := x
      simp only
      split
      · exact .refl
      · split
        · exact .refl
        · rcases ih (n - min (x.length - bo) n) (by omega) (off + min (x.length - bo) n) with h | h
          · rw [h]; exact Or.inl rfl
          · rw [h]; exact .refl

theorem streamRead_orErr (h : DataStream.Handle) {disk : Nat → Nat → Res Bytes} (hd : ∀ o n, OrErr (disk o n) (h.disk o n)) (size off n : Nat) :
    OrErr (streamRead { h with disk := disk } size off n) (streamRead h size off n) := by
  unfold streamRead
  split
  · exact .refl
  refine .bind ?_ fun _ => .refl
  unfold DataStream.read
  refine .bind .refl fun _ => ?_
  simp only
  split
  · exact .refl
  · exact readLoop_orErr (blockAt_orErr h hd) _ _ _ (Nat.le_refl _) _

/-- the attribute has a value: in the record, or in a data stream with extents that the B-tree has -/
inductive HasValue (F : FileRead.Files) (a : Attribute) (btree : Res (List Extent)) (v : Bytes) : Prop
  | stream (es : List Extent) (hd : DataStream.Handle) : a.flags % 2 ≠ 0 → a.size = v.length → btree = ok es → initHandle F.disk 4096 512 F.xts es false = ok hd →
      (∀ off n, streamRead hd v.length off n = ok ((v.drop off).take n)) → HasValue F a btree v
  | buffer : a.flags % 2 = 0 → a.flags / 2 % 2 ≠ 0 → a.size = v.length → v.length < 2 ^ 63 → bufferOf a = ok v → HasValue F a btree v

/-- storage and memory may fail -/
structure Faithful (F : FileRead.Files) (btree : Res (List Extent)) (env : Env) : Prop where
  alloc : env.alloc ≠ ub
  btree : OrErr env.btree btree
  disk : ∀ o n, OrErr (env.disk o n) (F.disk o n)

/-- storage and memory do not fail -/
structure Working (F : FileRead.Files) (btree : Res (List Extent)) (env : Env) : Prop where
  alloc : env.alloc = ok ()
  btree : env.btree = btree
  disk : env.disk = F.disk

/-- a data stream of the value -/
def StreamOf (F : FileRead.Files) (v : Bytes) (s : Stream) : Prop :=
  s.size = v.length ∧ ((∃ hd, s.source = .extents hd ∧ hd.disk = F.disk ∧ ∀ off n, streamRead hd v.length off n = ok ((v.drop off).take n)) ∨ (s.source = .buffer v ∧ v.length < 2 ^ 63))

/-- a handle at a position -/
def At (F : FileRead.Files) (v : Bytes) (pos : Nat) : Handle → Prop
  | none => pos = 0
  | some s => StreamOf F v s ∧ s.pos = pos

variable {F : FileRead.Files} {a : Attribute} {btree : Res (List Extent)} {v : Bytes} {env : Env}

theorem initHandle_disk {disk : Nat → Nat → Res Bytes} {bs bps : Nat} {xts : Option (Bytes → Bytes → Bytes)} {es : List Extent} {sparse : Bool} {hd : DataStream.Handle}
    (h : initHandle disk bs bps xts es sparse = ok hd) : hd.disk = disk := by
  unfold initHandle at h
  obtain ⟨_, _, h⟩ := bind_eq_ok.1 h
  cases h
  rfl

theorem rdN_take {d : Bytes} {off n : Nat} (h : off + n ≤ d.length) : rdN d off n = ok ((d.drop off).take n) := by
  unfold rdN
  rw [if_pos h]

theorem buffer_reads {s : Stream} (hs : s.size = v.length) (hb : s.source = .buffer v) (hv : v.length < 2 ^ 63) (off n : Nat) : readSource env s off n = ok ((v.drop off).take n) := by
  unfold readSource
  rw [hb]
  simp only [hs]
  by_cases ho : off ≥ v.length
  · rw [if_pos ho, List.drop_eq_nil_of_le ho, List.take_nil]
  · rw [if_neg ho]
    have e1 : DataStream.bufferStep v 0 (.seek 0 off) = ok (.offset off, (off : Int)) := by
      simp only [DataStream.bufferStep]
      rw [if_neg (by simp), if_neg (by omega)]
    rw [e1, ok_bind]
    have e2 : DataStream.bufferStep v off (.read 0 (min n (v.length - off))) = ok (.data ((v.drop off).take n), off + ((min n (v.length - off) : Nat) : Int)) := by
      simp only [DataStream.bufferStep]
      rw [if_neg (by omega), if_neg (by simp), if_neg (by omega), if_neg (by omega)]
      have : (if v.length - (off : Int).toNat > min n (v.length - off) then min n (v.length - off) else v.length - (off : Int).toNat) = min n (v.length - off) := by
        rw [Int.toNat_natCast]
        split <;> omega
      rw [this, Int.toNat_natCast, rdN_take (by omega), ok_bind]
      have e3 : (v.drop off).take (min n (v.length - off)) = (v.drop off).take n := by
        rw [← List.length_drop, Nat.min_comm, ← List.take_take]
        exact List.take_of_length_le (by rw [List.length_take]; omega)
      rw [e3]
      rfl
    simp only [e2, ok_bind]
    rfl

theorem readSource_spec {s : Stream} (hs : StreamOf F v s) (he : Faithful F btree env) (off n : Nat) :
    OrErr (readSource env s off n) (ok ((v.drop off).take n)) ∧ (Working F btree env → readSource env s off n = ok ((v.drop off).take n)) := by
  obtain ⟨h1, ⟨hd, h2, h3, h4⟩ | ⟨h2, h3⟩⟩ := hs
  · unfold readSource
    rw [h2]
    simp only [h1]
    have hx := streamRead_orErr hd (disk := env.disk) (fun o n => by rw [h3]; exact he.disk o n) v.length off n
    rw [h4] at hx
    refine ⟨hx, fun hw => ?_⟩
    rw [hw.disk, ← h3]
    exact h4 off n
  · have := buffer_reads (env := env) h1 h2 h3 off n
    exact ⟨Or.inr this, fun _ => this⟩

theorem readStream_spec {s : Stream} (hs : StreamOf F v s) (he : Faithful F btree env) (n : Nat) :
    (readStream env s n).1 ≠ ub ∧ StreamOf F v (readStream env s n).2 ∧
      (((readStream env s n).1 = err ∧ ¬ Working F btree env ∧ (readStream env s n).2.pos = s.pos) ∨
        (n < 2 ^ 63 ∧ (readStream env s n).1 = ok (.bytes ((v.drop s.pos).take n)) ∧ (readStream env s n).2.pos = s.pos + ((v.drop s.pos).take n).length) ∨
        (¬ n < 2 ^ 63 ∧ (readStream env s n).1 = err ∧ (readStream env s n).2.pos = s.pos)) := by
  unfold readStream
  by_cases hn : n < 2 ^ 63
  · rw [if_neg (by omega)]
    obtain ⟨h1 | h1, h2⟩ := readSource_spec hs he s.pos n
    · rw [h1]
      refine ⟨by simp, hs, Or.inl ⟨rfl, fun hw => ?_, rfl⟩⟩
      rw [h2 hw] at h1
      cases h1
    · rw [h1]
      exact ⟨by simp, hs, Or.inr (Or.inl ⟨hn, rfl, rfl⟩)⟩
  · rw [if_pos hn]
    exact ⟨by simp, hs, Or.inr (Or.inr ⟨hn, rfl, rfl⟩)⟩

theorem seekStream_spec {s : Stream} (hs : StreamOf F v s) (offset : Int) (whence : Nat) :
    (seekTo v.length s.pos offset whence = none ∧ seekStream s offset whence = (err, s)) ∨
      ∃ p, seekTo v.length s.pos offset whence = some p ∧ seekStream s offset whence = (ok p, { s with pos := p }) := by
  unfold seekStream seekTo
  simp only [hs.1]
  by_cases h0 : whence = 0
  · subst h0
    by_cases ho : offset < 0 <;> simp [ho]
  by_cases h1 : whence = 1
  · subst h1
    rw [Int.add_comm (s.pos : Int)]
    by_cases ho : offset + s.pos < 0 <;> simp [ho]
  by_cases h2 : whence = 2
  · subst h2
    rw [Int.add_comm (v.length : Int)]
    by_cases ho : offset + (v.length : Int) < 0 <;> simp [ho]
  · exact Or.inl ⟨by simp [h0, h1, h2], by rw [if_pos (Or.inl (by omega))]⟩

/-- what a caller gets: an answer or an error -/
def given : Res ValueAnswer → Option ValueAnswer
  | .ok r => some r
  | _ => none

/-- what is answered, or an error if something fails -/
def StepOk (F : FileRead.Files) (btree : Res (List Extent)) (env : Env) (v : Bytes) (pos : Nat) (o : ValueOp) (r : Res ValueAnswer) (h : Handle) : Prop :=
  r ≠ ub ∧ ((given r = (valueStep v pos o).1 ∧ At F v (valueStep v pos o).2 h) ∨ (¬ Working F btree env ∧ o ≠ .size ∧ r = err ∧ ∃ p, Moved v pos o p ∧ At F v p h))

theorem streamStep_spec {s : Stream} (hs : StreamOf F v s) (he : Faithful F btree env) (o : ValueOp) :
    StepOk F btree env v s.pos o (streamStep env o s).1 (some (streamStep env o s).2) := by
  cases o with
  | read n =>
    simp only [streamStep]
    obtain ⟨h1, h2, ⟨h3, h4, h5⟩ | ⟨h3, h4, h5⟩ | ⟨h3, h4, h5⟩⟩ := readStream_spec hs he n
    · exact ⟨h1, Or.inr ⟨h4, by simp, h3, _, .stays _, h2, h5⟩⟩
    · refine ⟨h1, Or.inl ?_⟩
      simp only [valueStep, if_pos h3]
      rw [h4]
      exact ⟨rfl, h2, h5⟩
    · refine ⟨h1, Or.inl ?_⟩
      simp only [valueStep, if_neg h3]
      rw [h4]
      exact ⟨rfl, h2, h5⟩
  | readAt n offset =>
    rcases seekStream_spec hs offset 0 with ⟨g1, g2⟩ | ⟨p, g1, g2⟩
    · simp only [streamStep, g2]
      refine ⟨by simp, Or.inl ?_⟩
      simp only [valueStep, g1]
      exact ⟨rfl, hs, rfl⟩
    · simp only [streamStep, g2]
      have hp : offset = (p : Int) := by
        unfold seekTo at g1
        simp only [↓reduceIte] at g1
        split at g1
        · cases g1
        · injection g1
          omega
      have hs' : StreamOf F v { s with pos := p } := hs
      obtain ⟨h1, h2, ⟨h3, h4, h5⟩ | ⟨h3, h4, h5⟩ | ⟨h3, h4, h5⟩⟩ := readStream_spec hs' he n
      · refine ⟨h1, Or.inr ⟨h4, by simp, h3, p, ?_, h2, h5⟩⟩
        rw [hp]
        exact .readAt n p
      · refine ⟨h1, Or.inl ?_⟩
        simp only [valueStep, g1, if_pos h3]
        rw [h4]
        exact ⟨rfl, h2, h5⟩
      · refine ⟨h1, Or.inl ?_⟩
        simp only [valueStep, g1, if_neg h3]
        rw [h4]
        exact ⟨rfl, h2, h5⟩
  | seek offset whence =>
    rcases seekStream_spec hs offset whence with ⟨g1, g2⟩ | ⟨p, g1, g2⟩
    · simp only [streamStep, g2]
      refine ⟨by simp, Or.inl ?_⟩
      simp only [valueStep, g1]
      exact ⟨rfl, hs, rfl⟩
    · simp only [streamStep, g2]
      refine ⟨by simp, Or.inl ?_⟩
      simp only [valueStep, g1]
      exact ⟨rfl, hs, rfl⟩
  | offset => exact ⟨by simp [streamStep], Or.inl ⟨rfl, hs, rfl⟩⟩
  | size =>
    refine ⟨by simp [streamStep], Or.inl ⟨?_, hs, rfl⟩⟩
    simp only [streamStep, valueStep, hs.1]
    rfl

/-- the extents that are kept are those of the B-tree -/
def Kept (btree : Res (List Extent)) : Option (List Extent) → Prop
  | none => True
  | some es => btree = ok es

theorem getExtents_spec {es : List Extent} (hb : btree = ok es) (he : Faithful F btree env) {x : Option (List Extent)} (hx : Kept btree x) :
    Kept btree (getExtents env x).2 ∧ ((getExtents env x).1 = ok es ∨ ((getExtents env x).1 = err ∧ ¬ Working F btree env)) := by
  cases x with
  | some x =>
    unfold Kept at hx
    rw [hb] at hx
    cases hx
    exact ⟨hb, Or.inl rfl⟩
  | none =>
    unfold getExtents
    cases ha : env.alloc with
    | ub => exact absurd ha he.alloc
    | err => exact ⟨trivial, Or.inr ⟨rfl, fun hw => by rw [hw.alloc] at ha; cases ha⟩⟩
    | ok u =>
      rcases he.btree with h | h
      · rw [h]
        exact ⟨trivial, Or.inr ⟨rfl, fun hw => by rw [hw.btree, hb] at h; cases h⟩⟩
      · rw [h, hb]
        exact ⟨show ok es = ok es from rfl, Or.inl rfl⟩

theorem getExtents_kept (he : Faithful F btree env) {x : Option (List Extent)} (hx : Kept btree x) : Kept btree (getExtents env x).2 := by
  cases x with
  | some x => exact hx
  | none =>
    unfold getExtents
    rcases he.btree with h | h
    · rw [h]
      cases env.alloc <;> exact trivial
    · rw [h]
      cases env.alloc with
      | ok u =>
        cases hb : btree with
        | ok es => exact show ok es = ok es from rfl
        | err => exact trivial
        | ub => exact trivial
      | err => cases btree <;> exact trivial
      | ub => cases btree <;> exact trivial

theorem getStream_spec (ha : HasValue F a btree v) (he : Faithful F btree env) {x : Option (List Extent)} (hx : Kept btree x) :
    Kept btree (getStream F a env x).2 ∧ ((∃ s, (getStream F a env x).1 = ok (some s) ∧ StreamOf F v s ∧ s.pos = 0) ∨ ((getStream F a env x).1 = err ∧ ¬ Working F btree env)) := by
  cases ha with
  | stream es hd h1 h2 h3 h4 h5 =>
    unfold getStream
    rw [if_pos h1]
    obtain ⟨g1, g2⟩ := getExtents_spec h3 he hx
    generalize getExtents env x = y at g1 g2
    obtain ⟨r, x'⟩ := y
    rcases g2 with g2 | ⟨g2, g3⟩
    · cases g2
      simp only [h4, ok_bind]
      refine ⟨g1, ?_⟩
      cases hl : env.alloc with
      | ub => exact absurd hl he.alloc
      | err => exact Or.inr ⟨rfl, fun hw => by rw [hw.alloc] at hl; cases hl⟩
      | ok u => exact Or.inl ⟨_, rfl, ⟨h2, Or.inl ⟨hd, rfl, initHandle_disk h4, h5⟩⟩, rfl⟩
    · cases g2
      exact ⟨g1, Or.inr ⟨rfl, g3⟩⟩
  | buffer h1 h2 h3 h4 h5 =>
    unfold getStream
    rw [if_neg (by omega), if_pos h2]
    simp only [h5, ok_bind]
    refine ⟨hx, ?_⟩
    cases hl : env.alloc with
    | ub => exact absurd hl he.alloc
    | err => exact Or.inr ⟨rfl, fun hw => by rw [hw.alloc] at hl; cases hl⟩
    | ok u => exact Or.inl ⟨_, rfl, ⟨h3, Or.inr ⟨rfl, h4⟩⟩, rfl⟩

theorem HasValue.size (ha : HasValue F a btree v) : a.size = v.length := by
  cases ha <;> assumption

theorem call_spec (ha : HasValue F a btree v) (he : Faithful F btree env) {x : Option (List Extent)} (hx : Kept btree x) {h : Handle} {pos : Nat} (hh : At F v pos h) (o : ValueOp) :
    StepOk F btree env v pos o (call F a env o x h).1 (call F a env o x h).2.2 ∧ Kept btree (call F a env o x h).2.1 := by
  unfold call
  by_cases ho : o = .size
  · subst ho
    rw [if_pos rfl]
    refine ⟨⟨by simp, Or.inl ⟨?_, hh⟩⟩, hx⟩
    simp only [valueStep, ha.size]
    rfl
  rw [if_neg ho]
  cases h with
  | some s =>
    obtain ⟨h1, h2⟩ := hh
    subst h2
    exact ⟨streamStep_spec h1 he o, hx⟩
  | none =>
    have hh : pos = 0 := hh
    subst hh
    obtain ⟨g1, g2⟩ := getStream_spec ha he hx
    simp only
    generalize getStream F a env x = y at g1 g2
    obtain ⟨r, x'⟩ := y
    rcases g2 with ⟨s, g2, g3, g4⟩ | ⟨g2, g3⟩
    · cases g2
      refine ⟨?_, g1⟩
      have := streamStep_spec g3 he o
      rwa [g4] at this
    · cases g2
      exact ⟨⟨by simp, Or.inr ⟨g3, ho, rfl, 0, .stays _, rfl⟩⟩, g1⟩

/-- handles at positions -/
def Positions (F : FileRead.Files) (v : Bytes) (ps : List (Option Nat)) (hs : List (Option Handle)) : Prop :=
  ps.length = hs.length ∧ ∀ k : Nat, match ps[k]?.join, hs[k]?.join with | none, none => True | some p, some h => At F v p h | _, _ => False

theorem Positions.set {ps : List (Option Nat)} {hs : List (Option Handle)} (h : Positions F v ps hs) (k : Nat) {p : Option Nat} {g : Option Handle}
    (hp : match p, g with | none, none => True | some p, some h => At F v p h | _, _ => False) : Positions F v (ps.set k p) (hs.set k g) := by
  refine ⟨by rw [List.length_set, List.length_set, h.1], fun j => ?_⟩
  have hj := h.2 j
  rw [List.getElem?_set, List.getElem?_set, h.1]
  by_cases hjk : k = j
  · subst hjk
    rw [if_pos rfl, if_pos rfl]
    by_cases hl : k < hs.length
    · rw [if_pos hl, if_pos hl]
      cases p <;> cases g <;> exact hp
    · rw [if_neg hl, if_neg hl]
      trivial
  · rw [if_neg hjk, if_neg hjk]
    exact hj

theorem Positions.append {ps : List (Option Nat)} {hs : List (Option Handle)} (h : Positions F v ps hs) : Positions F v (ps ++ [some 0]) (hs ++ [some none]) := by
  refine ⟨by simp [h.1], fun j => ?_⟩
  have hj := h.2 j
  rw [List.getElem?_append, List.getElem?_append, h.1]
  by_cases hl : j < hs.length
  · rw [if_pos hl, if_pos hl]
    exact hj
  · rw [if_neg hl, if_neg hl]
    cases hjl : j - hs.length with
    | zero => exact (rfl : (0 : Nat) = 0)
    | succ m => trivial

/-- what is seen of actions; an error may be due to a failure unless everything works -/
def seen (F : FileRead.Files) (btree : Res (List Extent)) (l : List (ValueAction × Env)) (rs : List (Res ValueAnswer)) : List (ValueAction × Prop × Option ValueAnswer) :=
  List.zipWith (fun x r => (x.1, ¬ Working F btree x.2, given r)) l rs

theorem acts_spec (ha : HasValue F a btree v) : ∀ (l : List (ValueAction × Env)), (∀ x ∈ l, Faithful F btree x.2) → ∀ (s : State) (ps : List (Option Nat)), Kept btree s.extents →
    Positions F v ps s.handles → (∀ r ∈ acts F a l s, r ≠ ub) ∧ ValueSeen v ps (seen F btree l (acts F a l s))
  | [], _, _, _, _, _ => ⟨by simp [acts], trivial⟩
  | (x, env) :: l, hl, s, ps, hx, hp => by
    have he := hl (x, env) (by simp)
    have ih := acts_spec ha l fun y hy => hl y (by simp [hy])
    simp only [acts, seen, List.zipWith_cons_cons, List.mem_cons, forall_eq_or_imp]
    cases x with
    | another =>
      simp only [act, ValueSeen]
      cases hc : env.alloc with
      | ub => exact absurd hc he.alloc
      | err =>
        obtain ⟨i1, i2⟩ := ih s ps hx hp
        exact ⟨⟨by simp, i1⟩, Or.inr ⟨fun hw => by (rw [hw.alloc] at hc; cases hc), rfl, i2⟩⟩
      | ok u =>
        obtain ⟨i1, i2⟩ := ih { s with handles := s.handles ++ [some none] } (ps ++ [some 0]) hx hp.append
        exact ⟨⟨by simp, i1⟩, Or.inl ⟨rfl, i2⟩⟩
    | free k =>
      simp only [act, ValueSeen]
      obtain ⟨i1, i2⟩ := ih { s with handles := s.handles.set k none } (ps.set k none) hx (hp.set k trivial)
      exact ⟨⟨by simp, i1⟩, rfl, i2⟩
    | other =>
      simp only [act, ValueSeen]
      obtain ⟨i1, i2⟩ := ih { s with extents := if a.flags % 2 ≠ 0 then (getExtents env s.extents).2 else s.extents } ps (by
        simp only
        split
        · exact getExtents_kept he hx
        · exact hx) hp
      exact ⟨⟨by simp, i1⟩, i2⟩
    | ask k o =>
      simp only [act, ValueSeen]
      have hk := hp.2 k
      cases h1 : ps[k]?.join with
      | none =>
        cases h2 : s.handles[k]?.join with
        | none =>
          obtain ⟨i1, i2⟩ := ih s ps hx hp
          exact ⟨⟨by simp, i1⟩, rfl, i2⟩
        | some h => rw [h1, h2] at hk; exact hk.elim
      | some pos =>
        cases h2 : s.handles[k]?.join with
        | none => rw [h1, h2] at hk; exact hk.elim
        | some h =>
          rw [h1, h2] at hk
          simp only
          obtain ⟨⟨c1, c2⟩, c3⟩ := call_spec ha he hx hk o
          rcases c2 with ⟨c2, c4⟩ | ⟨c2, c4, c5, p, c6, c7⟩
          · obtain ⟨i1, i2⟩ := ih { extents := (call F a env o s.extents h).2.1, handles := s.handles.set k (some (call F a env o s.extents h).2.2) } (ps.set k (some (valueStep v pos o).2)) c3
              (hp.set k c4)
            exact ⟨⟨c1, i1⟩, Or.inl ⟨c2, i2⟩⟩
          · obtain ⟨i1, i2⟩ := ih { extents := (call F a env o s.extents h).2.1, handles := s.handles.set k (some (call F a env o s.extents h).2.2) } (ps.set k (some p)) c3 (hp.set k c7)
            exact ⟨⟨c1, i1⟩, Or.inr ⟨c2, c4, by rw [c5]; rfl, p, c6, i2⟩⟩

theorem attributeByIndex_spec {f : StoredFile} {env : FileEntry.Env} {e : FileEntry.Entry} (hv : f.Valid) (hi : FileEntry.Inv f e) (he : FileEntry.Faithful f env) (index : Int) :
    (attributeByIndex env index e).1 ≠ ub ∧ FileEntry.Inv f (attributeByIndex env index e).2 ∧
      (∀ a, (attributeByIndex env index e).1 = ok a → 0 ≤ index ∧ ∃ x, f.attributes[index.toNat]? = some x ∧ a = FileEntry.attr x) ∧
      (FileEntry.Healthy f env → 0 ≤ index → ∀ x, f.attributes[index.toNat]? = some x → (attributeByIndex env index e).1 = ok (FileEntry.attr x)) := by
  unfold attributeByIndex
  obtain ⟨r, e', hn, h1, h2, h3, h4, h5⟩ := FileEntry.needAttributes_spec hv hi he
  rw [hn]
  cases r with
  | ub => exact absurd rfl h1
  | err => exact ⟨by simp, h3, by simp, fun hh => by have := h2 hh; cases this⟩
  | ok u =>
    simp only
    rw [h5 rfl]
    simp only
    by_cases h0 : index < 0
    · rw [if_pos h0]
      exact ⟨by simp, h3, by simp, fun _ h => by omega⟩
    · rw [if_neg h0, List.getElem?_map]
      cases hx : f.attributes[index.toNat]? with
      | none => exact ⟨by simp, h3, by simp, by simp⟩
      | some x =>
        refine ⟨by simp, h3, fun a ha => ?_, fun _ _ y hy => ?_⟩
        · cases ha
          exact ⟨by omega, x, rfl, rfl⟩
        · cases hy
          rfl

end AttributeRead
end Verif
