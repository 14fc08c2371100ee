import Verif.Props.C56Examples
import Verif.Spec.PyRead
/-!
# C64: Reading a file in Python

Any sequence of reads and seeks gives the bytes of the file; a file of 2 GiB or more cannot be read as a whole.
-/
namespace Verif.Props
open Verif Res Spec BTree FsTree FileRead
open Verif.PyRead (Size Call)

/-- a reader that gives a content from a position on, for any operations -/
def GivesFrom (c : Codec) (content : Bytes) (pos : Nat) (r : Reader) : Prop := ∀ ops, (∀ x ∈ FileRead.run c ops r, x ≠ ub) ∧ FileTrace content pos (seen ops (FileRead.run c ops r))

theorem givesFrom_step {c : Codec} {content : Bytes} {pos : Nat} {r : Reader} (h : GivesFrom c content pos r) (o : FileOp) :
    ∃ pos', (FileRead.step c o r).1 ≠ ub ∧ FileStep content False pos o (match (FileRead.step c o r).1 with | .ok b => some b | _ => none) pos' ∧ GivesFrom c content pos' (FileRead.step c o r).2 := by
  have h1 := h [o]
  have hs : ∀ os, seen (o :: os) (FileRead.run c (o :: os) r) = (o, False, match (FileRead.step c o r).1 with | .ok b => some b | _ => none) :: seen os (FileRead.run c os (FileRead.step c o r).2) := fun _ => rfl
  have hne : (FileRead.step c o r).1 ≠ ub := h1.1 _ (List.mem_cons_self ..)
  have hdet : ∀ {p q : Nat} {x : Option Bytes}, FileStep content False pos o x p → FileStep content False pos o x q → p = q := by
    intro p q x hp hq
    cases hp with
    | seek k => cases hq with
      | seek k' => rfl
    | seekNegative k hk => cases hq with
      | seekNegative k' hk' => rfl
    | read n => cases hq with
      | read n' => rfl
    | readFault n hf => exact hf.elim
  have h2 := h1.2
  rw [hs] at h2
  cases h2 with
  | cons hstep _ =>
    refine ⟨_, hne, hstep, fun os => ?_⟩
    have h3 := h (o :: os)
    refine ⟨fun x hx => h3.1 x (List.mem_cons_of_mem _ hx), ?_⟩
    have h4 := h3.2
    rw [hs] at h4
    cases h4 with
    | cons hstep' ht =>
      rw [hdet hstep hstep']
      exact ht

theorem gives_read {c : Codec} {content : Bytes} {pos : Nat} {r : Reader} (h : GivesFrom c content pos r) (n : Nat) :
    ∃ r', FileRead.step c (.read n) r = (ok ((content.drop pos).take n), r') ∧ GivesFrom c content (pos + ((content.drop pos).take n).length) r' := by
  obtain ⟨pos', h1, h2, h3⟩ := givesFrom_step h (.read n)
  cases hs : FileRead.step c (.read n) r with
  | mk x r' =>
    rw [hs] at h1 h2 h3
    dsimp only at h1 h2 h3
    cases x with
    | ub => exact absurd rfl h1
    | err => cases h2 with
      | readFault _ hf => exact hf.elim
    | ok b =>
      dsimp only at h2
      generalize hb : some b = y at h2
      cases h2 with
      | read n =>
        cases hb
        exact ⟨r', rfl, h3⟩
      | readFault _ hf => exact hf.elim

theorem gives_seek {c : Codec} {content : Bytes} {pos : Nat} {r : Reader} (h : GivesFrom c content pos r) (o : Nat) :
    ∃ r', FileRead.step c (.seek o) r = (ok [], r') ∧ GivesFrom c content o r' := by
  obtain ⟨pos', h1, h2, h3⟩ := givesFrom_step h (.seek o)
  cases hs : FileRead.step c (.seek o) r with
  | mk x r' =>
    rw [hs] at h1 h2 h3
    dsimp only at h1 h2 h3
    generalize hy : (match x with | .ok b => some b | _ => none) = y at h2
    generalize hk : (o : Int) = k at h2
    cases h2 with
    | seek =>
      cases Int.ofNat.inj hk
      cases x with
      | ok b => cases hy; exact ⟨r', rfl, h3⟩
      | err => cases hy
      | ub => cases hy
    | seekNegative _ hneg => omega

theorem gives_seekNegative {c : Codec} {content : Bytes} {pos : Nat} {r : Reader} (h : GivesFrom c content pos r) {o : Int} (ho : o < 0) :
    ∃ r', FileRead.step c (.seek o) r = (err, r') ∧ GivesFrom c content pos r' := by
  obtain ⟨pos', h1, h2, h3⟩ := givesFrom_step h (.seek o)
  cases hs : FileRead.step c (.seek o) r with
  | mk x r' =>
    rw [hs] at h1 h2 h3
    dsimp only at h1 h2 h3
    generalize hy : (match x with | .ok b => some b | _ => none) = y at h2
    cases h2 with
    | seek o' => omega
    | seekNegative _ hneg =>
      cases x with
      | ok b => cases hy
      | err => exact ⟨r', rfl, h3⟩
      | ub => exact absurd rfl h1

theorem stored_small {n : Nat} (h : n < 2 ^ 63) : PyRead.stored n = n := by
  unfold PyRead.stored
  rw [Nat.mod_eq_of_lt (by omega), if_pos h]

/-- what is shown of one method call -/
def CallOk (c : Codec) (content : Bytes) (pos : Nat) (r : Reader) (k : Call) : Prop := ∃ x r' pos', PyRead.call c (ok content.length) k r = (x, r') ∧ x ≠ ub ∧ Spec.PyRead.Step content pos k (match x with | .ok b => some b | _ => none) pos' ∧
  GivesFrom c content pos' r'

theorem call_of {c : Codec} {z : Res Nat} {k : Call} {os : List FileOp} (h : PyRead.ops z k = ok os) (r : Reader) : PyRead.call c z k r = PyRead.perform c os r := by
  unfold PyRead.call
  rw [h]

theorem call_refused {c : Codec} {z : Res Nat} {k : Call} (h : PyRead.ops z k = err) (r : Reader) : PyRead.call c z k r = (err, r) := by
  unfold PyRead.call
  rw [h]

/-- the operations once the size is known -/
theorem ops_read {z : Res Nat} {s : Size} {n : Int} (h : PyRead.readSize z s = ok n) :
    PyRead.ops z (.read s) = if n = 0 then ok [] else if n < 0 ∨ 2147483647 < n then err else ok [.read n.toNat] := by
  unfold PyRead.ops
  dsimp only
  rw [h, ok_bind]
  by_cases h0 : n = 0
  · rw [if_pos h0, if_pos h0]
    rfl
  · rw [if_neg h0, if_neg h0]
    by_cases hneg : n < 0
    · rw [require_false (by omega), if_pos (.inl hneg), err_bind]
    · rw [require_true hneg, ok_bind]
      by_cases hbig : 2147483647 < n
      · rw [require_false (by omega), if_pos (.inr hbig), err_bind]
      · rw [require_true (by omega), ok_bind, if_neg (by omega)]
        rfl

theorem ops_readAt {z : Res Nat} {s : Size} {o n : Int} (h64 : -2 ^ 63 ≤ o ∧ o < 2 ^ 63) (h : PyRead.readAtSize s = ok n) :
    PyRead.ops z (.readAt s o) = if n = 0 then ok [] else if n < 0 ∨ 2147483647 < n ∨ o < 0 then err else ok [.seek o, .read n.toNat] := by
  unfold PyRead.ops
  dsimp only
  rw [require_true h64, ok_bind, h, ok_bind]
  by_cases h0 : n = 0
  · rw [if_pos h0, if_pos h0]
    rfl
  · rw [if_neg h0, if_neg h0]
    by_cases hneg : n < 0
    · rw [require_false (by omega), if_pos (.inl hneg), err_bind]
    · rw [require_true hneg, ok_bind]
      by_cases hbig : 2147483647 < n
      · rw [require_false (by omega), if_pos (.inr (.inl hbig)), err_bind]
      · rw [require_true (by omega), ok_bind]
        by_cases ho : o < 0
        · rw [require_false (by omega), if_pos (.inr (.inr ho)), err_bind]
        · rw [require_true (by omega), ok_bind, if_neg (by omega)]
          rfl

theorem call_read {c : Codec} {content : Bytes} {pos : Nat} {r : Reader} (h : GivesFrom c content pos r) (i : Int) : CallOk c content pos r (.read (.int i)) := by
  have hlarge : Spec.PyRead.largest = 2147483647 := by decide
  by_cases h64 : -2 ^ 63 ≤ i ∧ i < 2 ^ 63
  · have hops := ops_read (z := ok content.length) (s := .int i) (n := i) (by unfold PyRead.readSize; exact if_pos h64)
    by_cases h0 : i = 0
    · subst h0
      rw [if_pos rfl] at hops
      refine ⟨ok [], r, pos, call_of hops r, by simp, ?_, h⟩
      have := Spec.PyRead.Step.read (content := content) (pos := pos) 0 (by omega)
      simpa using this
    · rw [if_neg h0] at hops
      by_cases hr : i < 0 ∨ 2147483647 < i
      · rw [if_pos hr] at hops
        refine ⟨err, r, pos, call_refused hops r, by simp, .readRefused (fun n hn => ?_) (fun hs => by rcases hs with hs | hs <;> cases hs), h⟩
        have := Size.int.inj hn
        omega
      · rw [if_neg hr] at hops
        obtain ⟨n, rfl⟩ := Int.eq_ofNat_of_zero_le (show 0 ≤ i by omega)
        obtain ⟨r', h1, h2⟩ := gives_read h n
        exact ⟨_, r', _, (call_of hops r).trans h1, by simp, .read n (by omega), h2⟩
  · refine ⟨err, r, pos, call_refused ?_ r, by simp, .readRefused (fun n hn => ?_) (fun hs => by rcases hs with hs | hs <;> cases hs), h⟩
    · unfold PyRead.ops PyRead.readSize
      dsimp only
      rw [if_neg h64, err_bind]
    · have := Size.int.inj hn
      omega

theorem call_readAll {c : Codec} {content : Bytes} (hl : content.length < 2 ^ 63) {pos : Nat} {r : Reader} (h : GivesFrom c content pos r) {s : Size} (hs : s = Size.missing ∨ s = Size.none_) :
    CallOk c content pos r (.read s) := by
  have hlarge : Spec.PyRead.largest = 2147483647 := by decide
  have hz : PyRead.readSize (ok content.length) s = ok (content.length : Int) := by
    rcases hs with rfl | rfl <;> (unfold PyRead.readSize; dsimp only; rw [ok_bind, stored_small hl]; rfl)
  have hops := ops_read hz
  by_cases h0 : content.length = 0
  · have hnil : content = [] := List.length_eq_zero_iff.1 h0
    rw [if_pos (by omega)] at hops
    refine ⟨ok [], r, pos, call_of hops r, by simp, ?_, h⟩
    have := Spec.PyRead.Step.readAll (content := content) (pos := pos) hs (by omega)
    rw [hnil] at this ⊢
    simpa using this
  · rw [if_neg (by omega)] at hops
    by_cases hbig : content.length ≤ 2147483647
    · rw [if_neg (by omega)] at hops
      obtain ⟨r', h1, h2⟩ := gives_read h content.length
      have htake : (content.drop pos).take content.length = content.drop pos := List.take_of_length_le (by rw [List.length_drop]; omega)
      rw [htake] at h1 h2
      exact ⟨_, r', _, (call_of hops r).trans h1, by simp, .readAll hs (by omega), h2⟩
    · rw [if_pos (by omega)] at hops
      refine ⟨err, r, pos, call_refused hops r, by simp, .readRefused (fun n hn => ?_) (fun _ => by omega), h⟩
      subst hn
      rcases hs with hs | hs <;> cases hs

theorem call_seek {c : Codec} {content : Bytes} {pos : Nat} {r : Reader} (h : GivesFrom c content pos r) (o : Int) : CallOk c content pos r (.seek o) := by
  by_cases h64 : -2 ^ 63 ≤ o ∧ o < 2 ^ 63
  · have hops : PyRead.ops (ok content.length) (.seek o) = ok [.seek o] := by
      unfold PyRead.ops
      dsimp only
      rw [require_true h64, ok_bind]
      rfl
    by_cases h0 : 0 ≤ o
    · obtain ⟨n, rfl⟩ := Int.eq_ofNat_of_zero_le h0
      obtain ⟨r', h1, h2⟩ := gives_seek h n
      exact ⟨_, r', _, (call_of hops r).trans h1, by simp, .seek n (by omega), h2⟩
    · obtain ⟨r', h1, h2⟩ := gives_seekNegative h (o := o) (by omega)
      exact ⟨_, r', _, (call_of hops r).trans h1, by simp, .seekRefused (.inl (by omega)), h2⟩
  · refine ⟨err, r, pos, call_refused ?_ r, by simp, .seekRefused (by omega), h⟩
    unfold PyRead.ops
    dsimp only
    rw [require_false h64, err_bind]

theorem call_readAt {c : Codec} {content : Bytes} {pos : Nat} {r : Reader} (h : GivesFrom c content pos r) (s : Size) (o : Int) : CallOk c content pos r (.readAt s o) := by
  have hlarge : Spec.PyRead.largest = 2147483647 := by decide
  by_cases h64 : -2 ^ 63 ≤ o ∧ o < 2 ^ 63
  · have hother : PyRead.readAtSize s = err → (∀ n : Nat, s = .int n → Spec.PyRead.largest < n) → CallOk c content pos r (.readAt s o) := by
      intro he hn
      refine ⟨err, r, pos, call_refused ?_ r, by simp, .readAtRefused (fun n h => .inl (hn n h)), h⟩
      unfold PyRead.ops
      dsimp only
      rw [require_true h64, ok_bind, he, err_bind]
    cases s with
    | missing | none_ | other => exact hother rfl (fun n hn => by cases hn)
    | int i =>
      by_cases hi : -2 ^ 63 ≤ i ∧ i < 2 ^ 63
      · have hops := ops_readAt (z := ok content.length) (s := .int i) (n := i) h64 (by unfold PyRead.readAtSize; exact if_pos hi)
        by_cases h0 : i = 0
        · subst h0
          rw [if_pos rfl] at hops
          exact ⟨ok [], r, pos, call_of hops r, by simp, .readNothing o h64.1 h64.2, h⟩
        · rw [if_neg h0] at hops
          by_cases hr : i < 0 ∨ 2147483647 < i ∨ o < 0
          · rw [if_pos hr] at hops
            refine ⟨err, r, pos, call_refused hops r, by simp, .readAtRefused (fun n hn => ?_), h⟩
            have := Size.int.inj hn
            omega
          · rw [if_neg hr] at hops
            obtain ⟨n, rfl⟩ := Int.eq_ofNat_of_zero_le (show 0 ≤ i by omega)
            obtain ⟨q, rfl⟩ := Int.eq_ofNat_of_zero_le (show 0 ≤ o by omega)
            obtain ⟨r1, h1, h2⟩ := gives_seek h q
            obtain ⟨r2, h3, h4⟩ := gives_read h2 n
            have hp : PyRead.perform c [.seek q, .read n] r = (ok ((content.drop q).take n), r2) := by
              unfold PyRead.perform
              rw [h1]
              exact h3
            exact ⟨_, r2, _, (call_of hops r).trans hp, by simp, .readAt n q (by omega) (by omega) (by omega), h4⟩
      · refine hother (by unfold PyRead.readAtSize; exact if_neg hi) (fun n hn => ?_)
        have := Size.int.inj hn
        omega
  · refine ⟨err, r, pos, call_refused ?_ r, by simp, .readAtRefused (fun n hn => by omega), h⟩
    unfold PyRead.ops
    dsimp only
    rw [require_false h64, err_bind]

/-- one method call -/
theorem call_step {c : Codec} {content : Bytes} (hl : content.length < 2 ^ 63) {pos : Nat} {r : Reader} (h : GivesFrom c content pos r) : ∀ k, CallOk c content pos r k
  | .read (.int i) => call_read h i
  | .read .missing => call_readAll hl h (.inl rfl)
  | .read .none_ => call_readAll hl h (.inr rfl)
  | .read .other => ⟨err, r, pos, call_refused rfl r, by simp, .readRefused (fun n hn => by cases hn) (fun hs => by rcases hs with hs | hs <;> cases hs), h⟩
  | .readAt s o => call_readAt h s o
  | .seek o => call_seek h o

theorem calls_trace {c : Codec} {content : Bytes} (hl : content.length < 2 ^ 63) : ∀ (ks : List Call) {pos : Nat} {r : Reader}, GivesFrom c content pos r →
    (∀ x ∈ PyRead.run c (ok content.length) ks r, x ≠ ub) ∧ Spec.PyRead.Trace content pos (Spec.PyRead.seen ks (PyRead.run c (ok content.length) ks r))
  | [], _, _, _ => ⟨by simp [PyRead.run], .nil⟩
  | k :: ks, pos, r, h => by
    obtain ⟨x, r', pos', h1, h2, h3, h4⟩ := call_step hl h k
    obtain ⟨g1, g2⟩ := calls_trace hl ks h4
    have hrun : PyRead.run c (ok content.length) (k :: ks) r = x :: PyRead.run c (ok content.length) ks r' := by
      rw [PyRead.run, h1]
    rw [hrun]
    constructor
    · intro y hy
      rcases List.mem_cons.1 hy with rfl | hy
      · exact h2
      · exact g1 y hy
    · exact .cons h3 g2

/-- the size of a file is that of its contents -/
theorem size_content {c : Codec} {f : StoredFile} {stream : Nat} {content : Bytes} {files : List Record} {image : Nat → Option Bytes} {enc : Option (Bytes → Bytes → Bytes)}
    (h : HasContent c files image enc f stream content) : f.size? = some content.length ∧ content.length < 2 ^ 63 := by
  have hsrc : ∀ a, f.source? = some a → f.size? = some (match a with | .plain n _ => n | .decoded _ _ n => n) := by
    intro a ha
    unfold StoredFile.source? at ha
    unfold StoredFile.size?
    cases hk : f.kind with
    | plain =>
      rw [hk] at ha
      cases ha
      rfl
    | damaged =>
      rw [hk] at ha
      cases ha
    | compressed m n =>
      rw [hk] at ha
      dsimp only at ha
      split at ha <;> first | (cases ha; done) | (obtain ⟨_, _, h⟩ := Option.map_eq_some_iff.1 ha; cases h; rfl)
  rcases h with ⟨h1, h2, _⟩ | ⟨algorithm, D, h1, _, blocks, hS, hH⟩
  · exact ⟨hsrc _ h1, h2⟩
  · refine ⟨hsrc _ h1, ?_⟩
    have hb : blocks.length ≤ 16383 := by
      generalize (if algorithm = .zlib then methodDeflate else methodLzvn) = method at hS
      cases hS with
      | lzvn _ _ h => exact h
      | zlib _ _ _ _ _ _ _ _ h => omega
      | inline _ _ => simp
    have := hH.1
    omega

theorem step_determined {content : Bytes} {pos : Nat} {k : Call} {r r' : Option Bytes} {p p' : Nat} (h : Spec.PyRead.Step content pos k r p) (h' : Spec.PyRead.Step content pos k r' p') : r = r' ∧ p = p' := by
  cases h with
  | readAll hs hl =>
    cases h' with
    | readAll => exact ⟨rfl, rfl⟩
    | read n hn => rcases hs with hs | hs <;> cases hs
    | readRefused h1 h2 => have := h2 hs; omega
  | read n hn =>
    generalize hk : Size.int (n : Int) = s at h'
    cases h' with
    | readAll hs => subst hk; rcases hs with hs | hs <;> cases hs
    | read m hm =>
      have : n = m := by
        have := Size.int.inj hk
        omega
      subst this
      exact ⟨rfl, rfl⟩
    | readRefused h1 h2 => have := h1 n hk.symm; omega
  | readAt n o h1 h2 h3 =>
    generalize hk : Size.int (n : Int) = s at h'
    generalize ho : (o : Int) = o' at h'
    cases h' with
    | readAt m q g1 g2 g3 =>
      have e1 : n = m := by
        have := Size.int.inj hk
        omega
      have e2 : o = q := by omega
      subst e1 e2
      exact ⟨rfl, rfl⟩
    | readNothing q g1 g2 => have := Size.int.inj hk; omega
    | readAtRefused g => have := g n hk.symm; omega
  | readNothing o h1 h2 =>
    generalize hk : Size.int 0 = s at h'
    cases h' with
    | readAt m q g1 g2 g3 => have := Size.int.inj hk; omega
    | readNothing q g1 g2 => exact ⟨rfl, rfl⟩
    | readAtRefused g => have := g 0 hk.symm; omega
  | seek _ h1 =>
    generalize ho : ((p : Nat) : Int) = o' at h'
    cases h' with
    | seek _ g => exact ⟨rfl, by omega⟩
    | seekRefused g => omega
  | readRefused h1 h2 =>
    cases h' with
    | readAll hs hl => have := h2 hs; omega
    | read n hn => have := h1 n rfl; omega
    | readRefused g1 g2 => exact ⟨rfl, rfl⟩
  | readAtRefused h1 =>
    cases h' with
    | readAt m q g1 g2 g3 => have := h1 m rfl; omega
    | readNothing q g1 g2 => have := h1 0 rfl; omega
    | readAtRefused g => exact ⟨rfl, rfl⟩
  | seekRefused h1 =>
    cases h' with
    | seek q g => omega
    | seekRefused g => exact ⟨rfl, rfl⟩

/-- **C64, the results are determined** by the contents and the calls: the specification leaves no choice. -/
theorem c64_determined {content : Bytes} : ∀ {t t' : List (Call × Option Bytes)} {pos : Nat}, Spec.PyRead.Trace content pos t → Spec.PyRead.Trace content pos t' → t.map (·.1) = t'.map (·.1) → t = t'
  | _, _, _, .nil, .nil, _ => rfl
  | _, _, _, .nil, .cons .., h => by cases h
  | _, _, _, .cons .., .nil, h => by cases h
  | _, _, _, .cons (k := k) (r := r) h1 h2, .cons (k := k') (r := r') h1' h2', h => by
    obtain ⟨hk, hm⟩ := List.cons.inj h
    have hk : k = k' := hk
    subst hk
    obtain ⟨e1, e2⟩ := step_determined h1 h1'
    subst e1 e2
    rw [c64_determined h2 h2' hm]

section
variable {F : Files} {s : Storage} {xid : Nat} {files : List Record} {image : Nat → Option Bytes} {cipher : Option (Cipher × Cipher)}

/-- **C64.** A file that is opened gives in Python, for any sequence of calls with any arguments, the bytes of its contents; without a size, the rest of the file.

What is missing: files of 2 GiB or more without a size, see `c64_large`; what is missing in `c53_opened_partial`. -/
theorem c64_opened_partial (hF : Serves F s xid image cipher) (h : FsHolds s xid files) (hroot : ∃ r ∈ files, IsOf 2 3 r) {f : StoredFile} {stream : Nat}
    (hf : FileIn files image (cipher.map (·.1)) f stream) {c : Codec} (hc : Compressed.CodecOk c) {content : Bytes} (hcon : HasContent c files image (cipher.map (·.1)) f stream content)
    {compare : Bytes → Bytes → Res Bool} (hcmp : Compares compare f) {i : Records.Inode} (hi : ReadsAs i f stream) {e : FileEntry.Entry} (he : FileEntry.Reached f e)
    {junk : Bytes} (hj : junk.length = 65536) :
    ∃ reader, openFile F compare junk i e = ok reader ∧ ∀ e', FileEntry.Reached f e' → ∀ calls,
      (∀ r ∈ PyRead.run c (FileEntry.getSize (FileRead.env F compare i) e').1 calls reader, r ≠ ub) ∧
      Spec.PyRead.Trace content 0 (Spec.PyRead.seen calls (PyRead.run c (FileEntry.getSize (FileRead.env F compare i) e').1 calls reader)) := by
  obtain ⟨reader, h1, h2⟩ := c53_opened_partial hF h hroot hf hc hcon hcmp hi he hj
  obtain ⟨z1, z2⟩ := size_content hcon
  refine ⟨reader, h1, fun e' he' calls => ?_⟩
  have hh := healthy_env hF h hroot hf hcmp hi
  have hz := c40_size_available f hf.valid e' he' _ hh (by
    intro m n hk hn
    unfold StoredFile.size? at z1
    rw [hk] at z1
    have := Option.some.inj z1
    omega) _ z1
  rw [hz]
  exact calls_trace z2 calls h2

/-- **C64, refuted for large files**: reading a file of 2 GiB or more without a size raises an exception at every position, even at the end of the file. -/
theorem c64_large {c : Codec} {r : Reader} {n : Nat} (h1 : 2 ^ 31 ≤ n) (h2 : n < 2 ^ 64) : PyRead.call c (ok n) (.read .missing) r = (err, r) ∧ PyRead.call c (ok n) (.read .none_) r = (err, r) := by
  have hops : ∀ s, s = Size.missing ∨ s = Size.none_ → PyRead.ops (ok n) (.read s) = err := by
    intro s hs
    have hz : PyRead.readSize (ok n) s = ok (PyRead.stored n) := by
      rcases hs with rfl | rfl <;> rfl
    rw [ops_read hz]
    unfold PyRead.stored
    rw [Nat.mod_eq_of_lt h2]
    by_cases h63 : n < 2 ^ 63
    · rw [if_pos h63, if_neg (by omega), if_pos (by omega)]
    · rw [if_neg h63, if_neg (by omega), if_pos (by omega)]
  constructor
  · unfold PyRead.call
    rw [hops _ (.inl rfl)]
  · unfold PyRead.call
    rw [hops _ (.inr rfl)]

end

/-- the file of the volume of C56, of 9 bytes; the second read is at the end of the file -/
example : ∃ i e reader, openFile MountExample.mounted.files MountExample.mounted.compare MountExample.mounted.junk i e = ok reader ∧
    Spec.PyRead.Trace (List.replicate 9 0x61) 0 (Spec.PyRead.seen [.read .missing, .read (.int 4), .readAt (.int 3) 7, .seek (-1)]
      (PyRead.run MountExample.mounted.unpack (FileEntry.getSize (FileRead.env MountExample.mounted.files MountExample.mounted.compare i) e).1 [.read .missing, .read (.int 4), .readAt (.int 3) 7, .seek (-1)] reader)) := by
  have hin := MountExample.fileIn (i := 7) (by simp)
  let inode : Records.Inode := { identifier := 7, parent := 5, dataStream := 7, modification := 0, creation := 0, change := 0, access := 0, flags := 0, links := 1, owner := 0, group := 0, mode := 0x81a4, name := none, size := 9, device := 0 }
  have hreach : FileEntry.Reached MountExample.file.stored { inodeSize := MountExample.file.stored.size, inodeFlags := 0 } := .new 0 (by decide +kernel)
  have hmirror : ReadsAs inode MountExample.file.stored 7 := ⟨by decide +kernel, by decide +kernel, by decide +kernel, by decide +kernel⟩
  obtain ⟨reader, h1, h2⟩ := c64_opened_partial MountExample.mounts.serves MountExample.mounts.holds MountExample.mounts.root hin MountExample.libraries.codec
    (MountExample.mounts.has.content 7 (.step (.step .root (e := NameLookup.DirectoryExample.entry NameLookup.DirectoryExample.docs 5) (.head _)) (e := NameLookup.DirectoryExample.entry NameLookup.DirectoryExample.readme 7) (.tail _ (.head _))) _ rfl) (FileExample.compares _) hmirror hreach MountExample.libraries.junk
  exact ⟨inode, _, reader, h1, (h2 _ hreach _).2⟩

end Verif.Props
