import Verif.Lemmas.SessionData
/-!
# Memory safety of the functions of a file entry, whatever its attributes and whatever fails
-/
namespace Verif
open Res
namespace Session
open FileEntry
open Records (Attribute)

/-- answers that are never undefined, and attributes that have as much data as they say -/
structure EnvOk (env : Env) : Prop where
  attributes : Safe env.attributes
  compare : ∀ a b, Safe (env.compare a b)
  extentData : ∀ i n, Safe (env.extentData i n)
  buffer : Safe env.buffer
  extents : Safe env.extents
  stream : Safe env.stream
  data : ∀ as, env.attributes = ok as → ∀ a ∈ as, ∀ d, a.data = some d → a.size ≤ d.length

/-- answers of which some fail -/
structure Weaker (env0 env : Env) : Prop where
  attributes : env.attributes = env0.attributes ∨ env.attributes = err
  compare : ∀ a b, env.compare a b = env0.compare a b ∨ env.compare a b = err
  extentData : ∀ i n, env.extentData i n = env0.extentData i n ∨ env.extentData i n = err
  buffer : env.buffer = env0.buffer ∨ env.buffer = err
  extents : env.extents = env0.extents ∨ env.extents = err
  stream : env.stream = env0.stream ∨ env.stream = err

theorem weaker_failing (env : Env) (f : Failures) : Weaker env (failing env f) := by
  refine ⟨?_, fun _ _ => ?_, fun _ _ => ?_, ?_, ?_, ?_⟩ <;> (unfold failing; simp only; split <;> simp)

theorem weaker_self (env : Env) : Weaker env env := ⟨.inl rfl, fun _ _ => .inl rfl, fun _ _ => .inl rfl, .inl rfl, .inl rfl, .inl rfl⟩

theorem safe_or {x y : Res α} (hx : Safe x) (h : y = x ∨ y = err) : Safe y := by
  rcases h with h | h <;> rw [h]
  · exact hx
  · exact safe_err

theorem ok_or {x y : Res α} {a : α} (h : y = x ∨ y = err) (hy : y = ok a) : x = ok a := by
  rcases h with h | h <;> rw [h] at hy
  · exact hy
  · cases hy

/-- attributes that the three pointers may point to -/
def isC (env : Env) (a : Attribute) : Prop := env.compare a.name decmpfsName = ok true
def isF (env : Env) (a : Attribute) : Prop := env.compare a.name decmpfsName = ok false ∧ env.compare a.name forkName = ok true
def isS (env : Env) (a : Attribute) : Prop := env.compare a.name decmpfsName = ok false ∧ env.compare a.name forkName = ok false ∧ env.compare a.name symlinkName = ok true

def Fresh (is : Attribute → Prop) (as : List Attribute) (n : Nat) (o : Option Ptr) : Prop := ∃ p, o = some p ∧ p.array = n ∧ p.value ∈ as ∧ is p.value

theorem Fresh.cons {is : Attribute → Prop} {a : Attribute} {as : List Attribute} {n : Nat} {o : Option Ptr} (h : Fresh is as n o) : Fresh is (a :: as) n o := by
  obtain ⟨p, h1, h2, h3, h4⟩ := h
  exact ⟨p, h1, h2, List.mem_cons_of_mem _ h3, h4⟩

/-- what a scan does to one of the pointers -/
structure Scanned (is : Attribute → Prop) (as : List Attribute) (n : Nat) (done : Prop) (old new : Option Ptr) : Prop where
  upd : new = old ∨ Fresh is as n new
  got : done → (∃ a ∈ as, is a) → Fresh is as n new

theorem Scanned.skip {is : Attribute → Prop} {a : Attribute} {as : List Attribute} {n : Nat} {done : Prop} {old new : Option Ptr} (h : Scanned is as n done old new) (ha : ¬ is a) :
    Scanned is (a :: as) n done old new := by
  refine ⟨h.upd.imp id Fresh.cons, fun hd ⟨b, hb, hi⟩ => ?_⟩
  rcases List.mem_cons.1 hb with rfl | hb
  · exact absurd hi ha
  · exact (h.got hd ⟨b, hb, hi⟩).cons

theorem Scanned.hit {is : Attribute → Prop} {a : Attribute} {as : List Attribute} {n : Nat} {done : Prop} {old new : Option Ptr}
    (h : Scanned is as n done (some { array := n, value := a }) new) (ha : is a) : Scanned is (a :: as) n done old new := by
  have : Fresh is (a :: as) n new := by
    rcases h.upd with h | h
    · exact ⟨_, h, rfl, List.mem_cons_self .., ha⟩
    · exact h.cons
  exact ⟨.inr this, fun _ _ => this⟩

theorem Scanned.stop {is : Attribute → Prop} {as : List Attribute} {n : Nat} {done : Prop} {old : Option Ptr} (h : ¬ done) : Scanned is as n done old old :=
  ⟨.inl rfl, fun hd => absurd hd h⟩

theorem scan_safe {env0 env : Env} (he : EnvOk env0) (hw : Weaker env0 env) (as : List Attribute) (e : Entry) :
    ∃ r c f s, scan env as e = (r, { e with compressed := c, fork := f, symlink := s }) ∧ r ≠ ub ∧ Scanned (isC env0) as e.array (r = ok ()) e.compressed c ∧
      Scanned (isF env0) as e.array (r = ok ()) e.fork f ∧ Scanned (isS env0) as e.array (r = ok ()) e.symlink s := by
  induction as generalizing e with
  | nil =>
    refine ⟨ok (), e.compressed, e.fork, e.symlink, rfl, by simp, ?_, ?_, ?_⟩ <;> exact ⟨.inl rfl, fun _ ⟨_, h, _⟩ => nomatch h⟩
  | cons a as ih =>
    have stop : ∃ r c f s, ((err : Res Unit), e) = (r, { e with compressed := c, fork := f, symlink := s }) ∧ r ≠ ub ∧ Scanned (isC env0) (a :: as) e.array (r = ok ()) e.compressed c ∧
      Scanned (isF env0) (a :: as) e.array (r = ok ()) e.fork f ∧ Scanned (isS env0) (a :: as) e.array (r = ok ()) e.symlink s :=
      ⟨err, e.compressed, e.fork, e.symlink, rfl, by simp, .stop (by simp), .stop (by simp), .stop (by simp)⟩
    unfold scan
    have c1 := hw.compare a.name decmpfsName
    have s1 := safe_or (he.compare _ _) c1
    cases h1 : env.compare a.name decmpfsName with
    | ub => exact absurd h1 s1
    | err => exact stop
    | ok b1 =>
      have h1 := ok_or c1 h1
      cases b1 with
      | true =>
        obtain ⟨r, c, f, s, g1, g2, g3, g4, g5⟩ := ih { e with compressed := some { array := e.array, value := a } }
        exact ⟨r, c, f, s, g1, g2, g3.hit h1, g4.skip (fun h => by have := h.1; rw [h1] at this; exact nomatch this), g5.skip (fun h => by have := h.1; rw [h1] at this; exact nomatch this)⟩
      | false =>
        have nc : ¬ isC env0 a := fun h => by unfold isC at h; rw [h1] at h; exact nomatch h
        simp only
        have c2 := hw.compare a.name forkName
        have s2 := safe_or (he.compare _ _) c2
        cases h2 : env.compare a.name forkName with
        | ub => exact absurd h2 s2
        | err => exact stop
        | ok b2 =>
          have h2 := ok_or c2 h2
          cases b2 with
          | true =>
            obtain ⟨r, c, f, s, g1, g2, g3, g4, g5⟩ := ih { e with fork := some { array := e.array, value := a } }
            exact ⟨r, c, f, s, g1, g2, g3.skip nc, g4.hit ⟨h1, h2⟩, g5.skip (fun h => by have := h.2.1; rw [h2] at this; exact nomatch this)⟩
          | false =>
            have nf : ¬ isF env0 a := fun h => by have := h.2; rw [h2] at this; exact nomatch this
            simp only
            have c3 := hw.compare a.name symlinkName
            have s3 := safe_or (he.compare _ _) c3
            cases h3 : env.compare a.name symlinkName with
            | ub => exact absurd h3 s3
            | err => exact stop
            | ok b3 =>
              have h3 := ok_or c3 h3
              cases b3 with
              | true =>
                obtain ⟨r, c, f, s, g1, g2, g3, g4, g5⟩ := ih { e with symlink := some { array := e.array, value := a } }
                exact ⟨r, c, f, s, g1, g2, g3.skip nc, g4.skip nf, g5.hit ⟨h1, h2, h3⟩⟩
              | false =>
                obtain ⟨r, c, f, s, g1, g2, g3, g4, g5⟩ := ih e
                exact ⟨r, c, f, s, g1, g2, g3.skip nc, g4.skip nf, g5.skip (fun h => by have := h.2.2; rw [h3] at this; exact nomatch this)⟩

/-- a pointer of an entry: to an attribute of the file, and into the present array if there is one -/
def PtrOk (env : Env) (is : Attribute → Prop) (e : Entry) (o : Option Ptr) : Prop :=
  ∀ p, o = some p → (∃ as, env.attributes = ok as ∧ p.value ∈ as ∧ is p.value) ∧ (e.attributes.isSome → p.array = e.array)

/-- an entry between calls -/
structure EntryOk (env : Env) (e : Entry) : Prop where
  attributes : ∀ as, e.attributes = some as → env.attributes = ok as
  compressed : PtrOk env (isC env) e e.compressed
  fork : PtrOk env (isF env) e e.fork
  symlink : PtrOk env (isS env) e e.symlink
  header : e.header.isSome → e.attributes.isSome
  stream : ∀ D n m, e.stream = some (.compressed D n m) → ∃ as a, env.attributes = ok as ∧ a ∈ as ∧ content env a = ok (some D)

theorem ptr_after {env : Env} {is : Attribute → Prop} {e e' : Entry} {as : List Attribute} (has : env.attributes = ok as) {n : Nat} {old new : Option Ptr} (h : PtrOk env is e old)
    {done : Prop} (hs : Scanned is as n done old new) (hn : e'.attributes.isSome → done ∧ e'.array = n) : PtrOk env is e' new := by
  intro p hp
  have hval : ∃ as, env.attributes = ok as ∧ p.value ∈ as ∧ is p.value := by
    rcases hs.upd with h1 | ⟨q, h1, _, h3, h4⟩
    · exact (h p (by rw [← h1]; exact hp)).1
    · rw [hp] at h1; cases h1
      exact ⟨as, has, h3, h4⟩
  refine ⟨hval, fun hsome => ?_⟩
  obtain ⟨hd, hn⟩ := hn hsome
  obtain ⟨as', h1, h2, h3⟩ := hval
  rw [has] at h1; cases h1
  obtain ⟨q, g1, g2, _, _⟩ := hs.got hd ⟨_, h2, h3⟩
  rw [hp] at g1; cases g1
  rw [g2, hn]

theorem getAttributes_safe {env0 env : Env} (he : EnvOk env0) (hw : Weaker env0 env) {e : Entry} (hi : EntryOk env0 e) :
    (getAttributes env e).1 ≠ ub ∧ EntryOk env0 (getAttributes env e).2 ∧ ((getAttributes env e).1 = ok () → (getAttributes env e).2.attributes.isSome) := by
  unfold getAttributes
  by_cases hs : e.attributes.isSome
  · rw [if_pos hs]; exact ⟨by simp, hi, fun h => nomatch h⟩
  rw [if_neg hs]
  have hsafe := safe_or he.attributes hw.attributes
  cases ha : env.attributes with
  | ub => exact absurd ha hsafe
  | err => exact ⟨by simp, hi, fun h => nomatch h⟩
  | ok as =>
    have ha := ok_or hw.attributes ha
    obtain ⟨r, c, f, s, g1, g2, g3, g4, g5⟩ := scan_safe he hw as { e with attributes := some as, array := e.array + 1 }
    simp only [g1]
    have hh : e.header.isSome = false := by
      cases h : e.header.isSome with
      | false => rfl
      | true => exact absurd (hi.header h) hs
    cases r with
    | ub => exact absurd rfl g2
    | err =>
      refine ⟨by simp, ⟨fun _ h => (nomatch h), ?_, ?_, ?_, fun h => ?_, hi.stream⟩, fun h => nomatch h⟩
      · exact ptr_after ha hi.compressed g3 (fun h => nomatch h)
      · exact ptr_after ha hi.fork g4 (fun h => nomatch h)
      · exact ptr_after ha hi.symlink g5 (fun h => nomatch h)
      · exact absurd h (by rw [hh]; simp)
    | ok u =>
      refine ⟨by simp, ⟨fun _ h => by cases h; exact ha, ?_, ?_, ?_, fun h => rfl, hi.stream⟩, fun _ => rfl⟩
      · exact ptr_after ha hi.compressed g3 (fun _ => ⟨rfl, rfl⟩)
      · exact ptr_after ha hi.fork g4 (fun _ => ⟨rfl, rfl⟩)
      · exact ptr_after ha hi.symlink g5 (fun _ => ⟨rfl, rfl⟩)

theorem need_safe {env0 env : Env} (he : EnvOk env0) (hw : Weaker env0 env) {e : Entry} (hi : EntryOk env0 e) :
    (needAttributes env e).1 ≠ ub ∧ EntryOk env0 (needAttributes env e).2 ∧ ((needAttributes env e).1 = ok () → (needAttributes env e).2.attributes.isSome) := by
  unfold needAttributes
  split
  · exact getAttributes_safe he hw hi
  · rename_i h
    refine ⟨by simp, hi, fun _ => ?_⟩
    cases ha : e.attributes with
    | none => rw [ha] at h; exact absurd rfl h
    | some as => rfl

theorem content_safe {env0 env : Env} (he : EnvOk env0) (hw : Weaker env0 env) {as : List Attribute} (has : env0.attributes = ok as) {a : Attribute} (ha : a ∈ as) : Safe (content env a) := by
  unfold content
  split
  · exact safe_bind (safe_or (he.extentData _ _) (hw.extentData _ _)) fun _ _ => safe_ok _
  split
  · split
    · exact safe_bind safe_require fun _ _ => safe_bind (safe_or he.buffer hw.buffer) fun _ _ => safe_ok _
    · rename_i d hd
      refine safe_bind safe_require fun _ _ => safe_bind (safe_or he.buffer hw.buffer) fun _ _ => ?_
      rw [if_pos (he.data as has a ha d hd)]
      exact safe_ok _
  · exact safe_ok _

theorem content_same {env0 env : Env} (hw : Weaker env0 env) {a : Attribute} {r : Option Bytes} (h : content env a = ok r) : content env0 a = ok r := by
  unfold content at h ⊢
  split at h
  · rw [if_pos (by assumption)]
    obtain ⟨d, h1, h⟩ := bind_eq_ok.1 h
    rw [ok_or (hw.extentData _ _) h1]
    exact h
  rw [if_neg (by assumption)]
  split at h
  · rw [if_pos (by assumption)]
    split at h
    · obtain ⟨_, h1, h⟩ := bind_eq_ok.1 h
      obtain ⟨_, h2, h⟩ := bind_eq_ok.1 h
      rw [h1, ok_bind, ok_or hw.buffer h2]
      exact h
    · obtain ⟨_, h1, h⟩ := bind_eq_ok.1 h
      obtain ⟨_, h2, h⟩ := bind_eq_ok.1 h
      rw [h1, ok_bind, ok_or hw.buffer h2]
      exact h
  · rw [if_neg (by assumption)]
    exact h

theorem headerOf_safe (c : Option Bytes) : Safe (headerOf c) := by
  cases c with
  | none => exact safe_err
  | some d =>
    refine safe_bind safe_require fun _ h => ?_
    have h := (require_eq_ok _).1 h
    have hl : (d.take 16).length = 16 := by rw [List.length_take]; omega
    unfold readHeader
    refine safe_bind safe_require fun _ _ => safe_bind (safe_rdN (by omega)) fun _ _ => ?_
    split
    · exact safe_ok _
    · exact safe_bind (safe_rdLE (by omega)) fun _ _ => safe_bind (safe_rdLE (by omega)) fun _ _ => safe_ok _

theorem deref_ok {env : Env} {is : Attribute → Prop} {e : Entry} {o : Option Ptr} (h : PtrOk env is e o) {p : Ptr} (hp : o = some p) (ha : e.attributes.isSome) :
    deref e p = ok p.value := by
  unfold deref
  rw [if_pos ⟨ha, (h p hp).2 ha⟩]

theorem getDataSize_safe {env0 env : Env} (he : EnvOk env0) (hw : Weaker env0 env) {e : Entry} (hi : EntryOk env0 e) :
    (getDataSize env e).1 ≠ ub ∧ EntryOk env0 (getDataSize env e).2 := by
  unfold getDataSize
  split
  · exact ⟨by simp, hi⟩
  split
  · exact ⟨by simp, hi⟩
  have hn := need_safe he hw hi
  revert hn
  generalize needAttributes env e = r
  intro hn
  obtain ⟨r, e⟩ := r
  cases r with
  | ub => exact absurd rfl hn.1
  | err => exact ⟨by simp, hn.2.1⟩
  | ok u =>
    have hi : EntryOk env0 e := hn.2.1
    have ha : e.attributes.isSome := hn.2.2 rfl
    simp only
    split
    · exact ⟨by simp, ⟨hi.attributes, hi.compressed, hi.fork, hi.symlink, hi.header, hi.stream⟩⟩
    · rename_i p hc
      obtain ⟨as, h1, h2, _⟩ := (hi.compressed p hc).1
      rw [deref_ok hi.compressed hc ha]
      simp only [ok_bind]
      have hsafe : Safe (compressedHeader env p.value) := safe_bind (content_safe he hw h1 h2) fun c _ => headerOf_safe c
      cases hh : compressedHeader env p.value with
      | ub => exact absurd hh hsafe
      | err => exact ⟨by simp, hi⟩
      | ok o =>
        cases o with
        | none => exact ⟨by simp, ⟨hi.attributes, hi.compressed, hi.fork, hi.symlink, hi.header, hi.stream⟩⟩
        | some h => exact ⟨by simp, ⟨hi.attributes, hi.compressed, hi.fork, hi.symlink, fun _ => ha, hi.stream⟩⟩

theorem getSize_safe {env0 env : Env} (he : EnvOk env0) (hw : Weaker env0 env) {e : Entry} (hi : EntryOk env0 e) : (getSize env e).1 ≠ ub ∧ EntryOk env0 (getSize env e).2 := by
  unfold getSize
  split
  · have := getDataSize_safe he hw hi
    revert this
    generalize getDataSize env e = r
    intro this
    obtain ⟨r, e⟩ := r
    cases r with
    | ub => exact absurd rfl this.1
    | err => exact ⟨by simp, this.2⟩
    | ok u => exact ⟨by simp, this.2⟩
  · exact ⟨by simp, hi⟩

theorem compressedStream_safe {env0 env : Env} (he : EnvOk env0) (hw : Weaker env0 env) {e : Entry} (hi : EntryOk env0 e) (ha : e.attributes.isSome) (m : Nat) :
    Safe (compressedStream env e m) ∧ ∀ s, compressedStream env e m = ok s → ∃ D n c as a, s = .compressed D n c ∧ env0.attributes = ok as ∧ a ∈ as ∧ content env0 a = ok (some D) := by
  have hpick : ∀ p, pick e m = ok p → deref e p = ok p.value ∧ ∃ as, env0.attributes = ok as ∧ p.value ∈ as := by
    intro p hp
    unfold pick notNull at hp
    split at hp
    · cases hp
    · rename_i o q hq
      cases hp
      split at hq
      · obtain ⟨as, h1, h2, _⟩ := (hi.fork p hq).1
        exact ⟨deref_ok hi.fork hq ha, as, h1, h2⟩
      · obtain ⟨as, h1, h2, _⟩ := (hi.compressed p hq).1
        exact ⟨deref_ok hi.compressed hq ha, as, h1, h2⟩
  unfold compressedStream
  constructor
  · refine safe_bind ?_ fun c _ => safe_bind ?_ fun p hp => ?_
    · unfold codecOf
      repeat' split
      all_goals first | exact safe_ok _ | exact safe_err
    · unfold pick notNull
      split
      · exact safe_err
      · exact safe_ok _
    · obtain ⟨h1, as, h2, h3⟩ := hpick p hp
      rw [h1, ok_bind]
      refine safe_bind (content_safe he hw h2 h3) fun d _ => ?_
      cases d with
      | none => exact safe_err
      | some d => exact safe_bind safe_require fun _ _ => safe_bind (safe_or he.stream hw.stream) fun _ _ => safe_ok _
  · intro s h
    obtain ⟨c, _, h⟩ := bind_eq_ok.1 h
    obtain ⟨p, hp, h⟩ := bind_eq_ok.1 h
    obtain ⟨h1, as, h2, h3⟩ := hpick p hp
    rw [h1, ok_bind] at h
    obtain ⟨d, hd, h⟩ := bind_eq_ok.1 h
    cases d with
    | none => cases h
    | some d =>
      obtain ⟨_, _, h⟩ := bind_eq_ok.1 h
      obtain ⟨_, _, h⟩ := bind_eq_ok.1 h
      cases h
      exact ⟨d, _, c, as, p.value, rfl, h2, h3, content_same hw hd⟩

theorem getDataStream_safe {env0 env : Env} (he : EnvOk env0) (hw : Weaker env0 env) {e : Entry} (hi : EntryOk env0 e) :
    (getDataStream env e).1 ≠ ub ∧ EntryOk env0 (getDataStream env e).2 := by
  unfold getDataStream
  split
  · exact ⟨by simp, hi⟩
  have hs : (if e.size = 2 ^ 64 - 1 then getDataSize env e else (ok (), e)).1 ≠ ub ∧ EntryOk env0 (if e.size = 2 ^ 64 - 1 then getDataSize env e else (ok (), e)).2 := by
    split
    · exact getDataSize_safe he hw hi
    · exact ⟨by simp, hi⟩
  revert hs
  generalize (if e.size = 2 ^ 64 - 1 then getDataSize env e else (ok (), e)) = r
  intro hs
  obtain ⟨r, e⟩ := r
  cases r with
  | ub => exact absurd rfl hs.1
  | err => exact ⟨by simp, hs.2⟩
  | ok u =>
    have hi : EntryOk env0 e := hs.2
    simp only
    split
    · rename_i h hh
      obtain ⟨s1, s2⟩ := compressedStream_safe he hw hi (hi.header (by rw [hh]; rfl)) h.1
      cases hc : compressedStream env e h.1 with
      | ub => exact absurd hc s1
      | err => exact ⟨by simp, hi⟩
      | ok s =>
        refine ⟨by simp, ⟨hi.attributes, hi.compressed, hi.fork, hi.symlink, hi.header, fun D n m hD => ?_⟩⟩
        obtain ⟨D', n', c, as, a, h1, h2, h3, h4⟩ := s2 s hc
        cases hD
        cases h1
        exact ⟨as, a, h2, h3, h4⟩
    · have := safe_or he.extents hw.extents
      cases hx : env.extents with
      | ub => exact absurd hx this
      | err => exact ⟨by simp, hi⟩
      | ok u => exact ⟨by simp, ⟨hi.attributes, hi.compressed, hi.fork, hi.symlink, hi.header, fun D n m hD => by cases hD⟩⟩

theorem openStream_safe {env0 env : Env} (he : EnvOk env0) (hw : Weaker env0 env) {e : Entry} (hi : EntryOk env0 e) :
    (openStream env e).1 ≠ ub ∧ EntryOk env0 (openStream env e).2 ∧ ∀ s, (openStream env e).1 = ok s → (openStream env e).2.stream = some s := by
  unfold openStream
  split
  · rename_i s hs
    exact ⟨by simp, hi, fun t ht => by cases ht; exact hs⟩
  · have := getDataStream_safe he hw hi
    revert this
    generalize getDataStream env e = r
    intro this
    obtain ⟨r, e⟩ := r
    cases r with
    | ub => exact absurd rfl this.1
    | err => exact ⟨by simp, this.2, fun _ h => nomatch h⟩
    | ok u =>
      simp only
      split
      · rename_i s hs
        exact ⟨by simp, this.2, fun t ht => by cases ht; exact hs⟩
      · exact ⟨by simp, this.2, fun _ h => nomatch h⟩

theorem symlinkTarget_safe {env0 env : Env} (he : EnvOk env0) (hw : Weaker env0 env) {e : Entry} (hi : EntryOk env0 e) :
    (symlinkTarget env e).1 ≠ ub ∧ EntryOk env0 (symlinkTarget env e).2 := by
  have key : (getTarget env e).1 ≠ ub ∧ EntryOk env0 (getTarget env e).2 := by
    unfold getTarget
    split
    · exact ⟨by simp, hi⟩
    have hn := need_safe he hw hi
    revert hn
    generalize needAttributes env e = r
    intro hn
    obtain ⟨r, e⟩ := r
    cases r with
    | ub => exact absurd rfl hn.1
    | err => exact ⟨by simp, hn.2.1⟩
    | ok u =>
      have hi : EntryOk env0 e := hn.2.1
      have ha : e.attributes.isSome := hn.2.2 rfl
      simp only
      split
      · exact ⟨by simp, hi⟩
      · rename_i p hc
        obtain ⟨as, h1, h2, _⟩ := (hi.symlink p hc).1
        rw [deref_ok hi.symlink hc ha]
        simp only [ok_bind]
        have hsafe : Safe (linkTarget env p.value) := by
          refine safe_bind safe_require fun _ _ => safe_bind (content_safe he hw h1 h2) fun d _ => ?_
          cases d with
          | none => exact safe_err
          | some d => exact safe_bind safe_require fun _ _ => safe_ok _
        cases hh : linkTarget env p.value with
        | ub => exact absurd hh hsafe
        | err => exact ⟨by simp, hi⟩
        | ok t => exact ⟨by simp, ⟨hi.attributes, hi.compressed, hi.fork, hi.symlink, hi.header, hi.stream⟩⟩
  unfold symlinkTarget
  split
  · exact ⟨by simp, hi⟩
  · revert key
    generalize getTarget env e = r
    intro key
    obtain ⟨r, e⟩ := r
    cases r with
    | ub => exact absurd rfl key.1
    | err => exact ⟨by simp, key.2⟩
    | ok u => exact ⟨by simp, key.2⟩

theorem findNamed_safe {env0 env : Env} (he : EnvOk env0) (hw : Weaker env0 env) (name : Bytes) (as : List Attribute) : Safe (findNamed env name as) := by
  induction as with
  | nil => exact safe_ok _
  | cons a as ih =>
    refine safe_bind (safe_or (he.compare _ _) (hw.compare _ _)) fun b _ => ?_
    cases b
    · exact ih
    · exact safe_ok _

theorem call_safe {env0 env : Env} (he : EnvOk env0) (hw : Weaker env0 env) {e : Entry} (hi : EntryOk env0 e) (c : Call) :
    (call env c e).1 ≠ ub ∧ EntryOk env0 (call env c e).2 := by
  have unit : ∀ {α : Type} {r : Res α}, r ≠ ub → r.bind (fun _ => ok ()) ≠ ub := fun h => safe_bind (β := Unit) h fun _ _ => safe_ok _
  have hn := need_safe he hw hi
  cases c with
  | size => exact ⟨unit (getSize_safe he hw hi).1, (getSize_safe he hw hi).2⟩
  | content => exact ⟨unit (openStream_safe he hw hi).1, (openStream_safe he hw hi).2.1⟩
  | target => exact ⟨unit (symlinkTarget_safe he hw hi).1, (symlinkTarget_safe he hw hi).2⟩
  | count =>
    have : (numberOfAttributes env e).1 ≠ ub ∧ EntryOk env0 (numberOfAttributes env e).2 := by
      unfold numberOfAttributes
      revert hn
      generalize needAttributes env e = r
      intro hn
      obtain ⟨r, e⟩ := r
      cases r with
      | ub => exact absurd rfl hn.1
      | err => exact ⟨by simp, hn.2.1⟩
      | ok u =>
        have ha : e.attributes.isSome := hn.2.2 rfl
        simp only
        split
        · rename_i h; rw [h] at ha; cases ha
        · exact ⟨by simp, hn.2.1⟩
    exact ⟨unit this.1, this.2⟩
  | byName name =>
    have : (attributeByName env name e).1 ≠ ub ∧ EntryOk env0 (attributeByName env name e).2 := by
      unfold attributeByName
      revert hn
      generalize needAttributes env e = r
      intro hn
      obtain ⟨r, e⟩ := r
      cases r with
      | ub => exact absurd rfl hn.1
      | err => exact ⟨by simp, hn.2.1⟩
      | ok u =>
        have ha : e.attributes.isSome := hn.2.2 rfl
        simp only
        split
        · rename_i h; rw [h] at ha; cases ha
        · exact ⟨findNamed_safe he hw _ _, hn.2.1⟩
    exact ⟨unit this.1, this.2⟩

theorem calls_safe {env : Env} (he : EnvOk env) (cs : List (Call × Failures)) {e : Entry} (hi : EntryOk env e) : Safe (calls env cs e) ∧ ∀ e', calls env cs e = ok e' → EntryOk env e' := by
  induction cs generalizing e with
  | nil => exact ⟨safe_ok _, fun e' h => by cases h; exact hi⟩
  | cons c cs ih =>
    obtain ⟨c, f⟩ := c
    have := call_safe he (weaker_failing env f) hi c
    unfold calls
    revert this
    generalize call (failing env f) c e = r
    intro this
    obtain ⟨r, e'⟩ := r
    cases r with
    | ub => exact absurd rfl this.1
    | err => exact ih this.2
    | ok u => exact ih this.2

end Session
end Verif
