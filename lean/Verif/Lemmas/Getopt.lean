import Verif.Spec.Getopt
/-!
# Lemmas: getopt does what POSIX says, the options string, word wrapping
-/
namespace Verif.Getopt

open Verif Verif.Res Spec

/-! ### The options string -/

theorem optionsLoop_eq (size : Nat) : ∀ (os : List Opt) (out : List Nat), out.length ≤ size →
    optionsLoop size os out =
      if out.length + (encode os).length ≤ size then ok (out ++ encode os) else err := by
  intro os
  induction os with
  | nil => intro out h; simp [optionsLoop, encode, h]
  | cons o os ih =>
    intro out h
    rw [optionsLoop, encode]
    by_cases hs : o.identifier = 0 ∨ o.help = false
    · rw [if_pos hs, ih out h]
      have hn : ¬(o.identifier ≠ 0 ∧ o.help = true) := by
        rcases hs with hs | hs <;> simp [hs]
      rw [if_neg hn]; rfl
    · rw [if_neg hs]
      have hn : o.identifier ≠ 0 ∧ o.help = true := by
        constructor
        · exact fun h => hs (Or.inl h)
        · cases hh : o.help
          · exact absurd (Or.inr hh) hs
          · rfl
      rw [if_pos hn]
      by_cases h1 : out.length ≥ size
      · rw [if_pos h1, if_neg]
        simp only [List.length_append, List.length_cons]; omega
      · rw [if_neg h1, store, if_pos (by omega), ok_bind]
        cases hname : o.name
        · rw [if_neg (by decide), ih _ (by simp; omega)]
          simp only [List.length_append, List.length_cons, List.length_nil, List.append_assoc,
            List.cons_append, List.nil_append, if_neg (by decide : ¬ (false = true))]
          split <;> split <;> first | rfl | omega
        · rw [if_pos rfl]
          by_cases h2 : (out ++ [o.identifier]).length ≥ size
          · rw [if_pos h2, if_neg]
            simp only [List.length_append, List.length_cons, List.length_nil] at h2 ⊢
            simp only [if_pos, List.length_cons, List.length_nil]
            omega
          · rw [if_neg h2, store, if_pos (by omega), ok_bind, ih _ (by simp at h2 ⊢; omega)]
            simp only [List.length_append, List.length_cons, List.length_nil, List.append_assoc,
              List.cons_append, List.nil_append, if_pos]
            split <;> split <;> first | rfl | omega

theorem optionsString_eq (size : Nat) (os : List Opt) :
    optionsString size os = if (encode os).length < size then ok (encode os) else err := by
  rw [optionsString, optionsLoop_eq size os [] (Nat.zero_le _)]
  simp only [List.length_nil, Nat.zero_add, List.nil_append]
  by_cases h : (encode os).length ≤ size
  · rw [if_pos h, ok_bind]
    by_cases h' : (encode os).length ≥ size
    · rw [if_pos h', if_neg (by omega)]
    · rw [if_neg h', store, if_pos (by omega), ok_bind, if_pos (by omega)]
  · rw [if_neg h, err_bind, if_neg (by omega)]

/-! ### Looking for an option -/

theorem deref_encode (os : List Opt) (h : Names os) : deref (encode os) ≠ colon := by
  induction os with
  | nil => decide
  | cons o os ih =>
    rw [encode]
    split
    · simp only [List.cons_append, deref, List.headD_cons]
      exact (h o (List.mem_cons_self ..)).1
    · exact ih fun o ho => h o (List.mem_cons_of_mem _ ho)

theorem search_encode (zero : Bool) (c : Nat) (h0 : c ≠ 0) (hc : c ≠ colon) :
    ∀ (os : List Opt), Names os →
    match takes os c with
    | none => search zero (encode os) c = none
    | some b => ∃ v, search zero (encode os) c = some (c :: v) ∧ (deref v = colon ↔ b = true) := by
  intro os
  induction os with
  | nil => intro _; simp [takes, encode, search, h0]
  | cons o os ih =>
    intro hn
    have ih := ih fun o ho => hn o (List.mem_cons_of_mem _ ho)
    have hd := deref_encode os fun o ho => hn o (List.mem_cons_of_mem _ ho)
    have hcol : ¬ colon = c := fun h => hc h.symm
    by_cases hm : ((o.identifier != 0 && o.help) && o.identifier == c) = true
    · have ht : takes (o :: os) c = some o.name := by simp only [takes, List.find?, hm, Option.map]
      rw [ht]
      simp only [Bool.and_eq_true, beq_iff_eq, bne_iff_ne] at hm
      rw [encode, if_pos hm.1]
      cases hname : o.name
      · refine ⟨encode os, ?_, ?_⟩
        · simp [search, hm.2]
        · simp [hd]
      · refine ⟨colon :: encode os, ?_, ?_⟩
        · simp [search, hm.2]
        · simp [deref]
    · have ht : takes (o :: os) c = takes os c := by
        simp only [takes, List.find?, Bool.eq_false_iff.mpr hm]
      have hs : search zero (encode (o :: os)) c = search zero (encode os) c := by
        rw [encode]
        split
        · rename_i hi
          have hne : ¬ o.identifier = c := by
            intro h
            apply hm
            simp [hi.2, h, h0]
          cases o.name
          · simp [search, hne]
          · simp [search, hne, hcol]
        · rfl
      rw [ht, hs]
      exact ih

theorem takes_ne (os : List Opt) (hn : Names os) {c : Nat} {b : Bool} (h : takes os c = some b) :
    c ≠ colon ∧ c ≠ question := by
  rw [takes, Option.map_eq_some_iff] at h
  obtain ⟨o, ho, _⟩ := h
  have hm := List.mem_of_find?_eq_some ho
  have hp := List.find?_some ho
  simp only [Bool.and_eq_true, beq_iff_eq] at hp
  rw [← hp.2]
  exact hn o hm

/-! ### Scanning -/

theorem parse_none {tk : Nat → Option Bool} {c : Nat} (h : tk c = none) (cs : Str) (args : List Str) :
    parse tk (c :: cs) args = ([], .invalid) := by
  rw [parse.eq_def]; simp only [h]

theorem parse_false {tk : Nat → Option Bool} {c : Nat} (h : tk c = some false) (cs : Str)
    (args : List Str) :
    parse tk (c :: cs) args = ((c, none) :: (parse tk cs args).1, (parse tk cs args).2) := by
  rw [parse.eq_def]; simp only [h]

theorem parse_true {tk : Nat → Option Bool} {c : Nat} (h : tk c = some true) (d : Nat) (ds : Str)
    (args : List Str) :
    parse tk (c :: d :: ds) args =
      ((c, some (d :: ds)) :: (parse tk [] args).1, (parse tk [] args).2) := by
  rw [parse.eq_def]; simp only [h, ne_eq, reduceCtorEq, not_false_eq_true, if_true]

theorem parse_next {tk : Nat → Option Bool} {c : Nat} (h : tk c = some true) (a : Str)
    (args : List Str) :
    parse tk [c] (a :: args) = ((c, some a) :: (parse tk [] args).1, (parse tk [] args).2) := by
  rw [parse.eq_def]; simp only [h, ne_eq, not_true, if_false]

theorem parse_missing {tk : Nat → Option Bool} {c : Nat} (h : tk c = some true) :
    parse tk [c] [] = ([], .invalid) := by
  rw [parse.eq_def]; simp only [h, ne_eq, not_true, if_false]


def cost (group : Str) (args : List Str) : Nat := group.length + (args.map fun a => a.length + 1).sum

/-- what `scan` does with the result of a call -/
def rest (zero : Bool) (argv : List Str) (options : Str) (fuel : Nat) (r : Option Nat × State) :
    Res (List (Nat × Option Str) × End) :=
  match r.1 with
  | none => ok ([], .operands (argv.drop r.2.optind))
  | some c =>
    if c = question ∨ c = colon then ok ([], .invalid)
    else do
      let (os, e) ← scan zero argv options fuel r.2
      ok ((c, r.2.optarg) :: os, e)

theorem scan_succ (zero : Bool) (argv : List Str) (options : Str) (fuel : Nat) (s : State) :
    scan zero argv options (fuel + 1) s =
      getopt zero argv options s >>= rest zero argv options fuel := by
  rw [scan]; rfl

theorem rest_option (zero : Bool) (argv : List Str) (options : Str) (fuel : Nat) (c : Nat) (s : State)
    (h : c ≠ colon ∧ c ≠ question) {r : List (Nat × Option Str) × End}
    (hs : scan zero argv options fuel s = ok r) :
    rest zero argv options fuel (some c, s) = ok ((c, s.optarg) :: r.1, r.2) := by
  simp only [rest, hs]
  rw [if_neg (by rintro (h' | h') <;> simp_all)]
  rfl

theorem drop_cons {argv : List Str} {i : Nat} {a : Str} (h : argv[i]? = some a) :
    argv.drop i = a :: argv.drop (i + 1) := by
  obtain ⟨hi, rfl⟩ := List.getElem?_eq_some_iff.mp h
  exact List.drop_eq_getElem_cons hi

theorem getopt_some (zero : Bool) (argv : List Str) (options : Str) (s : State) (p : Str) (t : State)
    (h : argument argv s = (some p, t)) :
    getopt zero argv options s =
      option zero argv options p t >>= fun r => ok (some r.1, r.2) := by
  simp only [getopt, h]

theorem scan_eq (zero : Bool) (argv : List Str) (table : List Opt) (hn : Names table)
    (hz : Strings argv) (hp : Plain argv) : ∀ (fuel i : Nat) (oa : Option Str),
    (cost [] (argv.drop i) < fuel →
      scan zero argv (encode table) fuel ⟨i, oa, none⟩ = ok (parse (takes table) [] (argv.drop i))) ∧
    ∀ (c : Nat) (cs : Str), 0 ∉ c :: cs → cost (c :: cs) (argv.drop (i + 1)) < fuel →
      i < argv.length →
      scan zero argv (encode table) fuel ⟨i, oa, some (c :: cs)⟩ =
        ok (parse (takes table) (c :: cs) (argv.drop (i + 1))) := by
  intro fuel
  induction fuel with
  | zero => intro i oa; exact ⟨fun h => by omega, fun _ _ _ h => by omega⟩
  | succ fuel ih =>
    intro i oa
    /- an option -/
    have hO : ∀ (c : Nat) (cs : Str), 0 ∉ c :: cs → cost (c :: cs) (argv.drop (i + 1)) < fuel + 1 →
        i < argv.length →
        (option zero argv (encode table) (c :: cs) ⟨i, oa, none⟩ >>= fun r =>
            (ok (some r.1, r.2) : Res (Option Nat × State)))
          >>= rest zero argv (encode table) fuel =
        ok (parse (takes table) (c :: cs) (argv.drop (i + 1))) := by
      intro c cs h0 hf hi
      have hc0 : c ≠ 0 := fun h => h0 (by simp [h])
      have hcs0 : 0 ∉ cs := fun h => h0 (List.mem_cons_of_mem _ h)
      have hq : ∀ s : State, rest zero argv (encode table) fuel (some question, s) =
          ok ([], .invalid) := fun s => rfl
      cases ht : takes table c with
      | none =>
        rw [parse_none ht]
        by_cases hcol : c = colon
        · subst hcol
          unfold option
          simp only [deref, List.headD_cons]
          cases hsr : search zero (encode table) colon with
          | none => rfl
          | some v =>
            cases v with
            | cons x v => rfl
            | nil =>
              exfalso
              have : ∀ l : Str, search zero l colon ≠ some [] := by
                intro l
                induction l with
                | nil => simp [search, colon]
                | cons y l ihl => rw [search]; split <;> simp_all
              exact this _ hsr
        · have hse := search_encode zero c hc0 hcol table hn
          rw [ht] at hse
          simp only [] at hse
          unfold option
          simp only [deref, List.headD_cons, hse]
          rfl
      | some b =>
        have hne := takes_ne table hn ht
        have hse := search_encode zero c hc0 hne.1 table hn
        rw [ht] at hse
        simp only [] at hse
        obtain ⟨v, hv, hb⟩ := hse
        have hd : deref (c :: cs) = c := rfl
        cases b with
        | false =>
          have hdv : deref v ≠ colon := fun h => by simpa using hb.mp h
          cases cs with
          | nil =>
            have ih' := (ih (i + 1) none).1 (by simp [cost] at hf ⊢; omega)
            have hop : option zero argv (encode table) [c] ⟨i, oa, none⟩ =
                ok (c, ⟨i + 1, none, none⟩) := by
              unfold option
              simp only [hd, hv, if_neg hne.1, if_pos hdv, if_pos]
            rw [hop]
            refine (rest_option zero argv _ fuel c _ hne ih').trans ?_
            rw [parse_false ht]
          | cons d ds =>
            have ih' := (ih i none).2 d ds hcs0 (by simp [cost] at hf ⊢; omega) hi
            have hop : option zero argv (encode table) (c :: d :: ds) ⟨i, oa, none⟩ =
                ok (c, ⟨i, none, some (d :: ds)⟩) := by
              unfold option
              simp only [hd, hv, if_neg hne.1, if_pos hdv]
              rw [if_neg (by simp)]
            rw [hop]
            refine (rest_option zero argv _ fuel c _ hne ih').trans ?_
            rw [parse_false ht]
        | true =>
          have hdv : deref v = colon := hb.mpr rfl
          cases cs with
          | nil =>
            cases ha : argv[i + 1]? with
            | none =>
              have hop : option zero argv (encode table) [c] ⟨i, oa, none⟩ =
                  ok (colon, ⟨i + 1, oa, none⟩) := by
                unfold option
                simp only [hd, hv, if_neg hne.1, ne_eq, hdv, not_true, if_false, ha]
              rw [hop, List.drop_eq_nil_of_le (by simpa using ha), parse_missing ht]
              rfl
            | some a =>
              have hdr : argv.drop (i + 1) = a :: argv.drop (i + 2) := drop_cons ha
              have ih' := (ih (i + 2) (some a)).1 (by
                rw [hdr] at hf
                simp only [cost, List.length_cons, List.length_nil, List.map_cons, List.sum_cons] at hf ⊢
                omega)
              have hop : option zero argv (encode table) [c] ⟨i, oa, none⟩ =
                  ok (c, ⟨i + 2, some a, none⟩) := by
                unfold option
                simp only [hd, hv, if_neg hne.1, ne_eq, hdv, not_true, if_false, ha]
              rw [hop]
              refine (rest_option zero argv _ fuel c _ hne ih').trans ?_
              rw [hdr, parse_next ht]
          | cons d ds =>
            have ih' := (ih (i + 1) (some (d :: ds))).1 (by simp [cost] at hf ⊢; omega)
            have hop : option zero argv (encode table) (c :: d :: ds) ⟨i, oa, none⟩ =
                ok (c, ⟨i + 1, some (d :: ds), none⟩) := by
              unfold option
              simp only [hd, hv, if_neg hne.1, ne_eq, hdv, not_true, if_false, reduceCtorEq,
                not_false_eq_true, if_true]
            rw [hop]
            refine (rest_option zero argv _ fuel c _ hne ih').trans ?_
            rw [parse_true ht]
    constructor
    · intro hf
      rw [scan_succ]
      have hstop : ∀ t : State, argument argv ⟨i, oa, none⟩ = (none, t) →
          getopt zero argv (encode table) ⟨i, oa, none⟩ >>= rest zero argv (encode table) fuel =
            ok ([], .operands (argv.drop t.optind)) := by
        intro t h; simp only [getopt, h]; rfl
      cases ha : argv[i]? with
      | none =>
        rw [hstop ⟨i, oa, none⟩ (by simp only [argument, ha])]
        rw [List.drop_eq_nil_of_le (by simpa using ha), parse]
      | some a =>
        have hmem : a ∈ argv := List.mem_of_getElem? ha
        have hdr := drop_cons ha
        have hi : i < argv.length := (List.getElem?_eq_some_iff.mp ha).1
        match a, ha, hmem, hdr with
        | [], ha, hmem, hdr =>
          rw [hstop ⟨i, oa, none⟩ (by simp only [argument, ha])]
          rw [hdr, parse]
        | [x], ha, hmem, hdr =>
          have hx : x ≠ dash := fun h => (hp _ hmem).1 (by rw [h])
          rw [hstop ⟨i, oa, none⟩ (by simp only [argument, ha, if_pos hx])]
          rw [hdr, parse]
        | x :: y :: ys, ha, hmem, hdr =>
          by_cases hx : x = dash
          · by_cases hy : y = dash
            · subst hx; subst hy
              have hys : ys = [] := by
                cases ys with
                | nil => rfl
                | cons z zs => exact absurd rfl ((hp _ hmem).2 z zs)
              rw [hstop ⟨i + 1, oa, none⟩ (by
                simp only [argument, ha, deref, List.headD_cons, ne_eq, not_true, if_false, if_true])]
              rw [hdr, parse, if_neg (by simp), if_pos ⟨rfl, hys⟩]
            · rw [getopt_some zero argv _ ⟨i, oa, none⟩ (y :: ys) ⟨i, oa, none⟩ (by
                have hy' : deref (y :: ys) ≠ dash := hy
                simp only [argument, ha, hx, ne_eq, not_true, if_false]
                rw [if_neg hy'])]
              have h0 : 0 ∉ y :: ys := fun h => hz _ hmem (List.mem_cons_of_mem _ h)
              rw [hO y ys h0 (by rw [hdr] at hf; simp [cost] at hf ⊢; omega) hi]
              rw [hdr, show parse (takes table) [] ((x :: y :: ys) :: argv.drop (i + 1)) =
                parse (takes table) (y :: ys) (argv.drop (i + 1)) from by
                  conv => lhs; rw [parse, if_neg (by simp [hx]), if_neg (by simp [hy])]]
          · rw [hstop ⟨i, oa, none⟩ (by simp only [argument, ha, ne_eq, hx, not_false_eq_true, if_true])]
            rw [hdr, parse, if_pos hx]
    · intro c cs h0 hf hi
      rw [scan_succ, getopt_some zero argv _ ⟨i, oa, some (c :: cs)⟩ (c :: cs) ⟨i, oa, none⟩ rfl]
      exact hO c cs h0 hf hi

/-! ### fsapfsinfo -/

theorem parse_known (tk : Nat → Option Bool) (group : Str) (args : List Str) :
    ∀ o ∈ (parse tk group args).1, tk o.1 ≠ none := by
  fun_induction parse tk group args <;> simp_all <;> assumption

def interp (e : End) : List (Nat × Option Str) → InfoVars → InfoEnd InfoVars
  | [], v =>
    match e with
    | .invalid => .invalid
    | .operands [] => .missing
    | .operands (a :: _) => .source a v
  | (66, a) :: os, v => interp e os { v with bodyfile := a }
  | (100, _) :: os, v => interp e os { v with md5 := true }
  | (69, a) :: os, v => interp e os { v with mode := some 69, identifier := a }
  | (102, a) :: os, v => interp e os { v with index := a }
  | (70, a) :: os, v => interp e os { v with mode := some 70, path := a }
  | (104, _) :: _, _ => .help
  | (72, _) :: os, v => interp e os { v with mode := some 72 }
  | (111, a) :: os, v => interp e os { v with offset := a }
  | (112, a) :: os, v => interp e os { v with password := a }
  | (114, a) :: os, v => interp e os { v with recovery := a }
  | (118, _) :: os, v => interp e os { v with verbose := true }
  | (86, _) :: _, _ => .version
  | _ :: _, _ => .invalid

/-- what `infoLoop` does with the result of a call -/
theorem infoLoop_scan (zero : Bool) (argv : List Str) (options : Str) :
    ∀ (fuel : Nat) (s : State) (v : InfoVars) (os : List (Nat × Option Str)) (e : End),
    scan zero argv options fuel s = ok (os, e) →
    infoLoop zero argv options fuel s v = ok (interp e os v) := by
  intro fuel
  induction fuel with
  | zero => intro s v os e h; cases h
  | succ fuel ih =>
    intro s v os e h
    rw [scan] at h
    rw [infoLoop]
    cases hg : getopt zero argv options s with
    | err => rw [hg] at h; cases h
    | ub => rw [hg] at h; cases h
    | ok r =>
      obtain ⟨c, t⟩ := r
      rw [hg, ok_bind] at h
      rw [ok_bind]
      cases c with
      | none =>
        simp only [ok.injEq, Prod.mk.injEq] at h
        obtain ⟨rfl, rfl⟩ := h
        simp only [interp]
        cases ha : argv[t.optind]? with
        | none => rw [List.drop_eq_nil_of_le (by simpa using ha)]
        | some a => rw [drop_cons ha]
      | some c =>
        simp only at h
        by_cases hc : c = question ∨ c = colon
        · rw [if_pos hc] at h
          simp only [ok.injEq, Prod.mk.injEq] at h
          obtain ⟨rfl, rfl⟩ := h
          rcases hc with rfl | rfl <;> rfl
        · rw [if_neg hc] at h
          cases hs : scan zero argv options fuel t with
          | err => rw [hs] at h; cases h
          | ub => rw [hs] at h; cases h
          | ok r =>
            obtain ⟨os', e'⟩ := r
            rw [hs, ok_bind] at h
            simp only [ok.injEq, Prod.mk.injEq] at h
            obtain ⟨rfl, rfl⟩ := h
            have ih := fun v => ih t v os' e' hs
            dsimp only
            split <;> first | (simp only [interp]; exact ih _) | rfl | skip
            all_goals simp_all [interp]

/-- the last argument of an option, or what there was before -/
def lastD (c : Nat) (d : Option Str) (os : List (Nat × Option Str)) : Option Str :=
  match os.reverse.find? fun o => o.1 == c with
  | none => d
  | some o => o.2

theorem last_eq (c : Nat) (os : List (Nat × Option Str)) : last c os = lastD c none os := by
  rw [last, lastD]; cases os.reverse.find? fun o => o.1 == c <;> rfl

theorem lastD_cons (c : Nat) (d : Option Str) (o : Nat × Option Str) (os : List (Nat × Option Str)) :
    lastD c d (o :: os) = lastD c (if o.1 = c then o.2 else d) os := by
  rw [lastD, lastD, List.reverse_cons, List.find?_append]
  cases os.reverse.find? fun o => o.1 == c with
  | some x => rfl
  | none =>
    by_cases h : o.1 = c <;> simp [h]

def modeD (d : Option Nat) (os : List (Nat × Option Str)) : Option Nat :=
  match os.reverse.find? fun o => o.1 == 69 || o.1 == 70 || o.1 == 72 with
  | none => d
  | some o => some o.1

theorem modeD_cons (d : Option Nat) (o : Nat × Option Str) (os : List (Nat × Option Str)) :
    modeD d (o :: os) =
      modeD (if (o.1 == 69 || o.1 == 70 || o.1 == 72) = true then some o.1 else d) os := by
  rw [modeD, modeD, List.reverse_cons, List.find?_append]
  cases os.reverse.find? fun o => o.1 == 69 || o.1 == 70 || o.1 == 72 with
  | some x => rfl
  | none =>
    by_cases h : (o.1 == 69 || o.1 == 70 || o.1 == 72) = true <;> simp [h]

def infoD (v : InfoVars) (os : List (Nat × Option Str)) (e : End) : InfoEnd InfoVars :=
  match os.find? fun o => o.1 == 104 || o.1 == 86 with
  | some o => if o.1 = 104 then .help else .version
  | none =>
    match e with
    | .invalid => .invalid
    | .operands [] => .missing
    | .operands (a :: _) => .source a
      { bodyfile := lastD 66 v.bodyfile os, md5 := v.md5 || given 100 os
        mode := modeD v.mode os
        identifier := lastD 69 v.identifier os, index := lastD 102 v.index os
        path := lastD 70 v.path os, offset := lastD 111 v.offset os
        password := lastD 112 v.password os, recovery := lastD 114 v.recovery os
        verbose := v.verbose || given 118 os }

theorem info_eq (os : List (Nat × Option Str)) (e : End) : info os e = infoD {} os e := by
  have hm : (os.reverse.find? fun o => o.1 == 69 || o.1 == 70 || o.1 == 72).map (·.1) =
      modeD none os := by
    rw [modeD]; cases os.reverse.find? fun o => o.1 == 69 || o.1 == 70 || o.1 == 72 <;> rfl
  simp only [info, infoD, last_eq, hm, Bool.false_or]
  cases os.find? fun o => o.1 == 104 || o.1 == 86 with
  | some o => rfl
  | none =>
    cases e with
    | invalid => rfl
    | operands l => cases l <;> rfl

def infoChars : List Nat := [66, 100, 69, 102, 70, 104, 72, 111, 112, 114, 118, 86]

theorem interp_eq (e : End) : ∀ (os : List (Nat × Option Str)) (v : InfoVars),
    (∀ o ∈ os, o.1 ∈ infoChars) → interp e os v = infoD v os e := by
  intro os
  induction os with
  | nil =>
    intro v _
    simp only [interp, infoD, List.find?_nil]
    cases e with
    | invalid => rfl
    | operands l => cases l <;> simp [lastD, modeD, given]
  | cons o os ih =>
    intro v h
    have ih := fun v => ih v fun o ho => h o (List.mem_cons_of_mem _ ho)
    have ho := h o (List.mem_cons_self ..)
    obtain ⟨c, a⟩ := o
    simp only [infoChars, List.mem_cons, List.not_mem_nil, or_false] at ho
    have hg : ∀ k, given k ((c, a) :: os) = (c == k || given k os) := fun k => rfl
    rcases ho with rfl | rfl | rfl | rfl | rfl | rfl | rfl | rfl | rfl | rfl | rfl | rfl <;>
      simp [interp, ih, infoD, lastD_cons, modeD_cons, hg]

theorem takes_info {c : Nat} (h : takes infoOptions c ≠ none) : c ∈ infoChars := by
  cases ht : takes infoOptions c with
  | none => exact absurd ht h
  | some b =>
    rw [takes, Option.map_eq_some_iff] at ht
    obtain ⟨o, ho, _⟩ := ht
    have hm := List.mem_of_find?_eq_some ho
    have hp := List.find?_some ho
    simp only [Bool.and_eq_true, beq_iff_eq, bne_iff_ne] at hp
    rw [← hp.2]
    have hall : ∀ o ∈ infoOptions, o.identifier ≠ 0 → o.identifier ∈ infoChars := by decide
    exact hall o hm hp.1.1

/-! ### fsapfsmount -/

def interpMount (e : End) : List (Nat × Option Str) → MountVars → MountEnd MountVars
  | [], v =>
    match e with
    | .invalid => .invalid
    | .operands [] => .missingSource
    | .operands [_] => .missingPoint
    | .operands (a :: b :: _) => .mount a b v
  | (102, a) :: os, v => interpMount e os { v with index := a }
  | (104, _) :: _, _ => .help
  | (111, a) :: os, v => interpMount e os { v with offset := a }
  | (112, a) :: os, v => interpMount e os { v with password := a }
  | (114, a) :: os, v => interpMount e os { v with recovery := a }
  | (118, _) :: os, v => interpMount e os { v with verbose := true }
  | (86, _) :: _, _ => .version
  | (88, a) :: os, v => interpMount e os { v with extended := a }
  | _ :: _, _ => .invalid

theorem mountLoop_scan (zero : Bool) (argv : List Str) (options : Str) :
    ∀ (fuel : Nat) (s : State) (v : MountVars) (os : List (Nat × Option Str)) (e : End),
    scan zero argv options fuel s = ok (os, e) →
    mountLoop zero argv options fuel s v = ok (interpMount e os v) := by
  intro fuel
  induction fuel with
  | zero => intro s v os e h; cases h
  | succ fuel ih =>
    intro s v os e h
    rw [scan] at h
    rw [mountLoop]
    cases hg : getopt zero argv options s with
    | err => rw [hg] at h; cases h
    | ub => rw [hg] at h; cases h
    | ok r =>
      obtain ⟨c, t⟩ := r
      rw [hg, ok_bind] at h
      rw [ok_bind]
      cases c with
      | none =>
        simp only [ok.injEq, Prod.mk.injEq] at h
        obtain ⟨rfl, rfl⟩ := h
        simp only [interpMount]
        cases ha : argv[t.optind]? with
        | none => rw [List.drop_eq_nil_of_le (by simpa using ha)]
        | some a =>
          rw [drop_cons ha]
          dsimp only
          cases hb : argv[t.optind + 1]? with
          | none => rw [List.drop_eq_nil_of_le (by simpa using hb)]
          | some b => rw [drop_cons hb]
      | some c =>
        simp only at h
        by_cases hc : c = question ∨ c = colon
        · rw [if_pos hc] at h
          simp only [ok.injEq, Prod.mk.injEq] at h
          obtain ⟨rfl, rfl⟩ := h
          rcases hc with rfl | rfl <;> rfl
        · rw [if_neg hc] at h
          cases hs : scan zero argv options fuel t with
          | err => rw [hs] at h; cases h
          | ub => rw [hs] at h; cases h
          | ok r =>
            obtain ⟨os', e'⟩ := r
            rw [hs, ok_bind] at h
            simp only [ok.injEq, Prod.mk.injEq] at h
            obtain ⟨rfl, rfl⟩ := h
            have ih := fun v => ih t v os' e' hs
            dsimp only
            split <;> first | (simp only [interpMount]; exact ih _) | rfl | skip
            all_goals simp_all [interpMount]

def mountD (v : MountVars) (os : List (Nat × Option Str)) (e : End) : MountEnd MountVars :=
  match os.find? fun o => o.1 == 104 || o.1 == 86 with
  | some o => if o.1 = 104 then .help else .version
  | none =>
    match e with
    | .invalid => .invalid
    | .operands [] => .missingSource
    | .operands [_] => .missingPoint
    | .operands (a :: b :: _) => .mount a b
      { index := lastD 102 v.index os, offset := lastD 111 v.offset os
        password := lastD 112 v.password os, recovery := lastD 114 v.recovery os
        verbose := v.verbose || given 118 os, extended := lastD 88 v.extended os }

theorem mount_eq (os : List (Nat × Option Str)) (e : End) : mount os e = mountD {} os e := by
  simp only [mount, mountD, last_eq, Bool.false_or]
  cases os.find? fun o => o.1 == 104 || o.1 == 86 with
  | some o => rfl
  | none =>
    match e with
    | .invalid => rfl
    | .operands [] => rfl
    | .operands [_] => rfl
    | .operands (_ :: _ :: _) => rfl

def mountChars : List Nat := [102, 104, 111, 112, 114, 118, 86, 88]

theorem interpMount_eq (e : End) : ∀ (os : List (Nat × Option Str)) (v : MountVars),
    (∀ o ∈ os, o.1 ∈ mountChars) → interpMount e os v = mountD v os e := by
  intro os
  induction os with
  | nil =>
    intro v _
    simp only [interpMount, mountD, List.find?_nil]
    match e with
    | .invalid => rfl
    | .operands [] => rfl
    | .operands [_] => rfl
    | .operands (_ :: _ :: _) => simp [lastD, given]
  | cons o os ih =>
    intro v h
    have ih := fun v => ih v fun o ho => h o (List.mem_cons_of_mem _ ho)
    have ho := h o (List.mem_cons_self ..)
    obtain ⟨c, a⟩ := o
    simp only [mountChars, List.mem_cons, List.not_mem_nil, or_false] at ho
    have hg : ∀ k, given k ((c, a) :: os) = (c == k || given k os) := fun k => rfl
    rcases ho with rfl | rfl | rfl | rfl | rfl | rfl | rfl | rfl <;>
      simp [interpMount, ih, mountD, lastD_cons, hg]

theorem takes_mount {c : Nat} (h : takes mountOptions c ≠ none) : c ∈ mountChars := by
  cases ht : takes mountOptions c with
  | none => exact absurd ht h
  | some b =>
    rw [takes, Option.map_eq_some_iff] at ht
    obtain ⟨o, ho, _⟩ := ht
    have hm := List.mem_of_find?_eq_some ho
    have hp := List.find?_some ho
    simp only [Bool.and_eq_true, beq_iff_eq, bne_iff_ne] at hp
    rw [← hp.2]
    have hall : ∀ o ∈ mountOptions, o.identifier ≠ 0 → o.identifier ∈ mountChars := by decide
    exact hall o hm hp.1.1

/-! ### Word wrapping -/

theorem wordEnd_le (text : Str) (n : Nat) (h : n ≤ text.length) : wordEnd text n ≤ text.length := by
  rw [wordEnd]
  split
  · split
    · exact h
    · exact wordEnd_le text (n + 1) (by omega)
  · exact h
termination_by text.length - n

theorem wordEnd_before (text : Str) (n j : Nat) (h1 : n ≤ j) (h2 : j < wordEnd text n) :
    ∀ c, text[j]? = some c → isBreak c = false := by
  intro c hc
  rw [wordEnd] at h2
  split at h2
  · rename_i hn
    split at h2
    · omega
    · rename_i hb
      by_cases hj : j = n
      · subst hj
        rw [List.getElem?_eq_getElem hn, Option.some.injEq] at hc
        rw [← hc]
        exact Bool.eq_false_iff.mpr hb
      · exact wordEnd_before text (n + 1) j (by omega) h2 c hc
  · omega
termination_by text.length - n

theorem wordEnd_break (text : Str) (n : Nat) (h : wordEnd text n < text.length) :
    isBreak (text[wordEnd text n]'h) = true := by
  have hu : wordEnd text n = if h : n < text.length then
      (if isBreak text[n] then n else wordEnd text (n + 1)) else n := by rw [wordEnd]
  by_cases hn : n < text.length
  · rw [dif_pos hn] at hu
    by_cases hb : isBreak text[n] = true
    · rw [if_pos hb] at hu
      simp only [hu, hb]
    · rw [if_neg hb] at hu
      have := wordEnd_break text (n + 1) (by rw [← hu]; exact h)
      simpa only [hu] using this
  · rw [dif_neg hn] at hu
    omega
termination_by text.length - n

/-- where a line may end: at the end, or behind a space or an end of line -/
def LineEnd (text : Str) (w : Nat) : Prop :=
  w = text.length ∨ ∃ c, 0 < w ∧ text[w - 1]? = some c ∧ isBreak c = true

/-- a line without its last word is not longer than asked for -/
def Fits (text : Str) (max line w : Nat) : Prop :=
  ∃ m, line ≤ m ∧ m ≤ w ∧ m - line < max ∧
    ∀ j c, m ≤ j → j + 1 < w → text[j]? = some c → isBreak c = false

theorem fill_spec (text : Str) (max line next : Nat) (h1 : line ≤ next) (h2 : next ≤ text.length) :
    next ≤ (fill text max line next next).2 ∧ (fill text max line next next).2 ≤ text.length ∧
    ((fill text max line next next).2 < text.length →
      (fill text max line next next).1 = (fill text max line next next).2) ∧
    ((fill text max line next next).2 = next ∧ ¬ next - line < max ∨
      next - line < max ∧ LineEnd text (fill text max line next next).2 ∧
      Fits text max line (fill text max line next next).2 ∧
      (next < text.length → next < (fill text max line next next).2)) := by
  rw [fill]
  by_cases hm : next - line < max
  · rw [if_pos hm]
    have hle := le_wordEnd text next
    have hbound := wordEnd_le text next h2
    have hbef := wordEnd_before text next
    by_cases he : wordEnd text next ≥ text.length
    · simp only [if_pos he]
      refine ⟨h2, Nat.le_refl _, fun h => by omega, .inr ⟨hm, .inl rfl, ⟨next, h1, h2, hm, ?_⟩, fun h => h⟩⟩
      intro j c hj hj' hc
      exact hbef j hj (by omega) c hc
    · simp only [if_neg he]
      have ih := fill_spec text max line (wordEnd text next + 1) (by omega) (by omega)
      refine ⟨by omega, ih.2.1, ih.2.2.1, .inr ⟨hm, ?_⟩⟩
      rcases ih.2.2.2 with ⟨hw, _⟩ | ⟨_, hl, hf, _⟩
      · rw [hw]
        refine ⟨.inr ⟨_, by omega, List.getElem?_eq_getElem (by omega), ?_⟩, ⟨next, h1, by omega, hm, ?_⟩,
          fun _ => by omega⟩
        · exact wordEnd_break text next (by omega)
        · intro j c hj hj' hc
          exact hbef j hj (by omega) c hc
      · exact ⟨hl, hf, fun _ => by omega⟩
  · rw [if_neg hm]
    exact ⟨Nat.le_refl _, h2, fun _ => rfl, .inl ⟨rfl, hm⟩⟩
termination_by text.length - next
decreasing_by
  have := le_wordEnd text next
  omega

theorem short_of_fits {text : Str} {max line w : Nat} (hw : w ≤ text.length) (hl : line ≤ w)
    (h : Fits text max line w) : Short max ((text.drop line).take (w - line)) := by
  obtain ⟨m, h1, h2, h3, h4⟩ := h
  refine ⟨(text.drop line).take (m - line), (text.drop m).take (w - m), ?_, ?_, ?_⟩
  · rw [show w - line = (m - line) + (w - m) by omega, List.take_add, List.drop_drop,
      show line + (m - line) = m by omega]
  · rw [List.length_take]; omega
  · intro c hc
    rw [List.mem_iff_getElem?] at hc
    obtain ⟨k, hk⟩ := hc
    rw [List.getElem?_dropLast] at hk
    split at hk
    · rename_i hlt
      rw [List.length_take, List.length_drop] at hlt
      rw [List.getElem?_take_of_lt (by omega), List.getElem?_drop] at hk
      have hb := h4 (m + k) c (by omega) (by omega) hk
      simpa [isBreak] using hb
    · cases hk

theorem wrapLoop_spec (text : Str) (max : Nat) (hmax : 0 < max) : ∀ (fuel line : Nat),
    line ≤ text.length → text.length - line < fuel →
    ∃ ls, wrapLoop text max fuel line line line = ok ls ∧ Lines (text.drop line) ls ∧
      (∀ l ∈ ls, Short max l) := by
  intro fuel
  induction fuel with
  | zero => intro line _ h; omega
  | succ fuel ih =>
    intro line hle hf
    rw [wrapLoop]
    by_cases hl : line < text.length
    · rw [if_pos hl]
      obtain ⟨h1, h2, h3, h4⟩ := fill_spec text max line line (Nat.le_refl _) hle
      generalize fill text max line line line = r at h1 h2 h3 h4
      obtain ⟨next, word⟩ := r
      dsimp only at h1 h2 h3 h4 ⊢
      rcases h4 with ⟨_, hm⟩ | ⟨_, hend, hfit, hprog⟩
      · omega
      · have hprog := hprog hl
        have hshort := short_of_fits h2 h1 hfit
        by_cases hw : word ≥ text.length
        · rw [if_pos hw]
          have hall : (text.drop line).take (word - line) = text.drop line :=
            List.take_of_length_le (by rw [List.length_drop]; omega)
          refine ⟨_, rfl, ⟨?_, ?_⟩, ?_⟩
          · rw [hall]; simp
          · simp
          · intro l hlm
            rw [List.mem_singleton] at hlm
            rw [hlm]; exact hshort
        · rw [if_neg hw, h3 (by omega)]
          obtain ⟨ls, hls, hlines, hsh⟩ := ih word h2 (by omega)
          refine ⟨_, by rw [hls]; rfl, ⟨?_, ?_⟩, ?_⟩
          · rw [List.flatten_cons, hlines.text]
            rw [show text.drop word = (text.drop line).drop (word - line) by
              rw [List.drop_drop]; congr 1; omega]
            exact List.take_append_drop ..
          · intro l hlm
            cases ls with
            | nil =>
              have := hlines.text
              simp only [List.flatten_nil] at this
              have := congrArg List.length this
              simp only [List.length_nil, List.length_drop] at this
              omega
            | cons l' ls' =>
              rw [List.dropLast_cons_cons, List.mem_cons] at hlm
              rcases hlm with rfl | hlm
              · rcases hend with hend | ⟨c, hpos, hc, hb⟩
                · omega
                · refine ⟨c, ?_, ?_⟩
                  · rw [List.getLast?_eq_getElem?, List.length_take, List.length_drop,
                      List.getElem?_take_of_lt (by omega), List.getElem?_drop]
                    rw [← hc]; congr 1; omega
                  · simpa [isBreak] using hb
              · exact hlines.ends l hlm
          · intro l hlm
            rw [List.mem_cons] at hlm
            rcases hlm with rfl | hlm
            · exact hshort
            · exact hsh l hlm
    · rw [if_neg hl]
      have : line = text.length := by omega
      exact ⟨[], rfl, ⟨by rw [this]; simp, by simp⟩, by simp⟩

theorem wrapLoop_zero (text : Str) (h : text ≠ []) : ∀ fuel,
    wrapLoop text 0 fuel 0 0 0 = err := by
  intro fuel
  induction fuel with
  | zero => rfl
  | succ fuel ih =>
    have hl : 0 < text.length := List.length_pos_iff.mpr h
    rw [wrapLoop, if_pos hl, fill, if_neg (by omega)]
    simp only
    rw [if_neg (by omega), ih]
    rfl

end Verif.Getopt
