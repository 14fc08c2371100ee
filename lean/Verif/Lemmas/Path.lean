import Verif.Spec.Path
import Verif.Lemmas.Directory
import Verif.Lemmas.Walk
/-! Lookup of paths -/
namespace Verif
open Res Spec
namespace NameLookup
open BTree FsTree Name Records

/-- code units of a name in a path, whatever follows -/
structure IsSegment {α : Type} (dq : Decoder α) (seg : List α) : Prop where
  nonempty : seg ≠ []
  decodes : ∃ cs : List Nat, (∀ c ∈ cs, c ≠ 0x2f ∧ c ≠ 0) ∧ ∀ r, Decodes dq (seg ++ r) cs r

theorem segment_decodes {α : Type} (dq : Decoder α) {start s r : List α} {cs : List Nat} (h : Decodes dq s cs r) (hc : ∀ c ∈ cs, c ≠ 0x2f ∧ c ≠ 0) :
    segment dq start s = segment dq start r := by
  induction h with
  | done => rfl
  | @step s t r c cs hn _ ih =>
    rw [← ih (fun c hm => hc c (List.mem_cons_of_mem _ hm))]
    have hcc := hc c (List.mem_cons_self ..)
    conv => lhs; unfold segment
    rw [if_neg (next_ne_nil dq hn)]
    split
    · rename_i h1; rw [h1] at hn; cases hn
    · rename_i c' t' h1
      rw [h1] at hn
      have hn := Option.some.inj hn
      simp only [Prod.mk.injEq] at hn
      obtain ⟨rfl, rfl⟩ := hn
      rw [if_neg (by omega)]

theorem segment_last {α : Type} (dq : Decoder α) {seg : List α} (h : IsSegment dq seg) : segment dq seg seg = ok (seg, []) := by
  obtain ⟨_, cs, hc, hd⟩ := h
  have := hd []
  rw [List.append_nil] at this
  rw [segment_decodes dq this hc]
  unfold segment
  rw [if_pos rfl]

theorem segment_separator {α : Type} (dq : Decoder α) {seg r : List α} {separator : α} (h : IsSegment dq seg) (hs : dq.next (separator :: r) = some (0x2f, r)) :
    segment dq (seg ++ separator :: r) (seg ++ separator :: r) = ok (seg, r) := by
  obtain ⟨_, cs, hc, hd⟩ := h
  rw [segment_decodes dq (hd (separator :: r)) hc]
  unfold segment
  rw [if_neg (by simp)]
  split
  · rename_i h1; rw [h1] at hs; cases hs
  · rename_i c' t' h1
    rw [h1] at hs
    have hs := Option.some.inj hs
    simp only [Prod.mk.injEq] at hs
    obtain ⟨rfl, rfl⟩ := hs
    rw [if_pos (.inl rfl)]
    congr 2
    rw [show (seg ++ separator :: t').length - t'.length - 1 = seg.length by simp only [List.length_append, List.length_cons]; omega, List.take_left]

/-- looking up the names one after the other -/
def walk {α : Type} (lookup : Nat → List α → Res (Option DirectoryRecord)) : Nat → Option DirectoryRecord → List (List α) → Res (Option (Nat × Option DirectoryRecord))
  | identifier, record, [] => ok (some (identifier, record))
  | identifier, _, name :: names => do
    let r ← lookup identifier name
    match r with
    | none => return none
    | some r => walk lookup r.identifier (some r) names

theorem pathLoop_nil {α : Type} (dq : Decoder α) (lookup : Nat → List α → Res (Option DirectoryRecord)) (i : Nat) (record : Option DirectoryRecord) :
    pathLoop dq lookup i record [] = ok (some (i, record)) := by
  unfold pathLoop
  rw [dif_pos rfl]

theorem pathLoop_segment {α : Type} (dq : Decoder α) (lookup : Nat → List α → Res (Option DirectoryRecord)) (i : Nat) (record : Option DirectoryRecord)
    {s seg rest : List α} (hs : s ≠ []) (h : segment dq s s = ok (seg, rest)) (hseg : seg ≠ []) :
    pathLoop dq lookup i record s = (do
      let r ← lookup i seg
      match r with
      | none => return none
      | some r => pathLoop dq lookup r.identifier (some r) rest) := by
  conv => lhs; unfold pathLoop
  rw [dif_neg hs]
  split
  · rename_i h1; rw [h1] at h; cases h
  · rename_i h1; rw [h1] at h; cases h
  · rename_i seg' rest' h1
    rw [h1] at h
    have h := Res.ok.inj h
    simp only [Prod.mk.injEq] at h
    obtain ⟨rfl, rfl⟩ := h
    rw [if_neg hseg]
    rfl

theorem pathLoop_names {α : Type} (dq : Decoder α) (lookup : Nat → List α → Res (Option DirectoryRecord)) {separator : α}
    (hsep : ∀ r, dq.next (separator :: r) = some (0x2f, r)) {names : List (List α)} (hn : ∀ n ∈ names, IsSegment dq n) (hne : names ≠ []) (trailing : Bool) (i : Nat)
    (record : Option DirectoryRecord) :
    pathLoop dq lookup i record (joinNames separator names ++ (if trailing then [separator] else [])) = walk lookup i record names := by
  induction names generalizing i record with
  | nil => exact absurd rfl hne
  | cons n names ih =>
    have h1 := hn n (List.mem_cons_self ..)
    cases names with
    | nil =>
      unfold joinNames walk
      cases trailing with
      | false =>
        rw [if_neg (by simp), List.append_nil, pathLoop_segment dq lookup i record h1.nonempty (segment_last dq h1) h1.nonempty]
        cases lookup i n with
        | ok r =>
          simp only [ok_bind]
          cases r with
          | none => rfl
          | some r => simp only [pathLoop_nil]; unfold walk; rfl
        | err => rfl
        | ub => rfl
      | true =>
        rw [if_pos rfl, pathLoop_segment dq lookup i record (by simp) (segment_separator dq h1 (hsep [])) h1.nonempty]
        cases lookup i n with
        | ok r =>
          simp only [ok_bind]
          cases r with
          | none => rfl
          | some r => simp only [pathLoop_nil]; unfold walk; rfl
        | err => rfl
        | ub => rfl
    | cons m names =>
      have ih := ih (fun x hx => hn x (List.mem_cons_of_mem _ hx)) (by simp)
      unfold joinNames walk
      rw [List.append_assoc, List.cons_append, pathLoop_segment dq lookup i record (by simp) (segment_separator dq h1 (hsep _)) h1.nonempty]
      cases lookup i n with
      | ok r =>
        simp only [ok_bind]
        cases r with
        | none => rfl
        | some r => exact ih r.identifier (some r)
      | err => rfl
      | ub => rfl

theorem joinNames_head {α : Type} (separator : α) {n : List α} {names : List (List α)} (h : n ≠ []) : (joinNames separator (n :: names)).head? = n.head? := by
  cases names with
  | nil => rfl
  | cons m names =>
    unfold joinNames
    cases n with
    | nil => exact absurd rfl h
    | cons c n => rfl

/-- a name does not start with a separator -/
theorem segment_head {α : Type} (dq : Decoder α) {separator : α} (hsep : ∀ r, dq.next (separator :: r) = some (0x2f, r)) {seg : List α} (h : IsSegment dq seg) :
    seg.head? ≠ some separator := by
  obtain ⟨hne, cs, hc, hd⟩ := h
  intro hh
  cases seg with
  | nil => exact hne rfl
  | cons c seg =>
    simp only [List.head?_cons, Option.some.injEq] at hh
    subst hh
    have := hd []
    rw [List.append_nil] at this
    cases this with
    | step hn _ =>
      rename_i t c' cs' _
      rw [hsep] at hn
      have hn := Option.some.inj hn
      simp only [Prod.mk.injEq] at hn
      exact (hc c' (by simp)).1 hn.1.symm

/-! absence of undefined behaviour -/

theorem safe_compareRecord {α : Type} (dn : Decoder UInt8) (dq : Decoder α) (folding : Bool) (name : Bytes) (hash : Nat) (str : List α) (strHash : Nat) :
    Safe (compareRecord dn dq folding name hash str strHash) := by
  unfold compareRecord
  split
  · exact safe_ok _
  · split
    · exact safe_ok _
    · exact safe_compareName dn dq folding name str

theorem safe_lookupLeaf {α : Type} (dn : Decoder UInt8) (dq : Decoder α) (folding : Bool) (parent : Nat) (str : List α) (strHash : Nat) (es : List Entry) :
    Safe (lookupLeaf dn dq folding parent str strHash es) := by
  induction es with
  | nil => exact safe_ok _
  | cons e es ih =>
    unfold lookupLeaf
    refine safe_bind safe_require fun _ hr => ?_
    have hr := (require_eq_ok _).1 hr
    refine safe_bind (safe_rdLE (by omega)) fun key _ => ?_
    split
    · refine safe_bind (safe_readDirectoryKey _) fun p _ => ?_
      refine safe_bind (safe_compareRecord dn dq folding _ _ str strHash) fun o _ => ?_
      split
      · exact safe_bind (safe_readDirectoryValue _) fun _ _ => safe_ok _
      · exact ih
    · exact ih

theorem safe_lookupBranch {α : Type} (dn : Decoder UInt8) (dq : Decoder α) (parent : Nat) (str : List α) (strHash : Nat) (es : List Entry) (p : Option Entry) :
    Safe (lookupBranch dn dq parent str strHash es p) := by
  induction es generalizing p with
  | nil => exact safe_ok _
  | cons e es ih =>
    unfold lookupBranch
    refine safe_bind safe_require fun _ hr => ?_
    have hr := (require_eq_ok _).1 hr
    refine safe_bind (safe_rdLE (by omega)) fun key _ => ?_
    split
    · exact safe_ok _
    · split
      · refine safe_bind (safe_readDirectoryKey _) fun p _ => ?_
        refine safe_bind (safe_compareRecord dn dq false _ _ str strHash) fun o _ => ?_
        split
        · exact safe_ok _
        · exact ih _
      · exact ih _

theorem safe_lookupNode {α : Type} (dn : Decoder UInt8) (dq : Decoder α) (folding : Bool) {sub : Bytes → Res Node} (hs : ∀ v, Safe (sub v)) (parent : Nat) (str : List α)
    (strHash fuel : Nat) (n : Node) : Safe (lookupNode dn dq folding sub parent str strHash fuel n) := by
  induction fuel generalizing n with
  | zero =>
    unfold lookupNode
    split
    · exact safe_lookupLeaf dn dq folding parent str strHash _
    · exact safe_err
  | succ fuel ih =>
    unfold lookupNode
    split
    · exact safe_lookupLeaf dn dq folding parent str strHash _
    · refine safe_bind (safe_lookupBranch dn dq parent str strHash _ _) fun p _ => ?_
      split
      · exact safe_err
      · exact safe_bind (hs _) fun m _ => ih m

theorem safe_lookupName {α : Type} (dn : Decoder UInt8) (dq : Decoder α) (folding : Bool) {sub : Bytes → Res Node} (hs : ∀ v, Safe (sub v)) (root : Node) (parent : Nat)
    (str : List α) : Safe (lookupName dn dq folding sub root parent str) := by
  unfold lookupName
  refine safe_bind ?_ fun h _ => safe_lookupNode dn dq folding hs parent str h 257 root
  unfold Name.nameHash
  exact safe_bind (safe_hashLoop dq folding _ str) fun _ _ => safe_ok _

theorem safe_segment {α : Type} (dq : Decoder α) (start s : List α) : Safe (segment dq start s) := by
  fun_induction segment dq start s with
  | case1 => exact safe_ok _
  | case2 => exact safe_err
  | case3 => exact safe_ok _
  | case4 s _ c t _ _ ih => exact ih

theorem safe_pathLoop {α : Type} (dq : Decoder α) {lookup : Nat → List α → Res (Option DirectoryRecord)} (hl : ∀ i s, Safe (lookup i s)) (i : Nat)
    (record : Option DirectoryRecord) (s : List α) : Safe (pathLoop dq lookup i record s) := by
  induction hlen : s.length using Nat.strongRecOn generalizing i record s with
  | ind n ih =>
    by_cases hs : s = []
    · rw [hs, pathLoop_nil]
      exact safe_ok _
    · cases hseg : segment dq s s with
      | err =>
        unfold pathLoop
        rw [dif_neg hs]
        split
        · exact safe_err
        · rename_i h1; rw [hseg] at h1; cases h1
        · rename_i h1; rw [hseg] at h1; cases h1
      | ub => exact absurd hseg (safe_segment dq s s)
      | ok p =>
        obtain ⟨seg, rest⟩ := p
        by_cases hne : seg = []
        · unfold pathLoop
          rw [dif_neg hs]
          split
          · exact safe_err
          · rename_i h1; rw [hseg] at h1; cases h1
          · rename_i h1
            rw [hseg] at h1
            have h1 := Res.ok.inj h1
            simp only [Prod.mk.injEq] at h1
            rw [if_pos (by rw [← h1.1]; exact hne)]
            exact safe_ok _
        · rw [pathLoop_segment dq lookup i record hs hseg hne]
          refine safe_bind (hl _ _) fun r _ => ?_
          split
          · exact safe_ok _
          · exact ih rest.length (by have := segment_shorter dq s s seg rest hseg hs; omega) _ _ _ rfl

theorem safe_lookupPath {α : Type} [DecidableEq α] (dn : Decoder UInt8) (dq : Decoder α) (separator : α) (folding : Bool) {v : Volume} (hv : SafeVolume v)
    (xid parent : Nat) (str : List α) : Safe (lookupPath dn dq separator folding v xid parent str) := by
  unfold lookupPath
  refine safe_bind safe_require fun _ _ => ?_
  refine safe_bind (safe_fsRootNode hv) fun r _ => ?_
  split
  · exact safe_ok _
  · refine safe_bind ?_ fun p _ => ?_
    · split
      · exact safe_ok _
      · exact safe_pathLoop dq (fun i s => safe_lookupName dn dq folding (safe_fsSub hv xid) _ i s) _ _ _
    · split
      · exact safe_ok _
      · refine safe_bind (safe_fsEntry hv xid _ 3) fun e _ => ?_
        split
        · exact safe_err
        · refine safe_bind ?_ fun _ _ => safe_ok _
          unfold readInode
          refine safe_bind ?_ fun i _ => safe_readInodeValue i _
          unfold readInodeKey
          refine safe_bind safe_require fun _ hr => ?_
          have hr := (require_eq_ok _).1 hr
          exact safe_bind (safe_rdLE (by omega)) fun _ _ => safe_ok _

end NameLookup
end Verif
