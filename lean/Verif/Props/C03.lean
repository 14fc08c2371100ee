import Verif.Lemmas.NameHash
/-!
# C03 – name hash
-/
namespace Verif.Props
open Verif Res Name
open Verif.Spec (excluded InOrder)

/-- The name hash of a case-insensitive volume is the specified one for every name, in UTF-8 or UTF-16, without Hangul syllables and recently added
characters, if no combining marks have to be reordered. -/
theorem c03_case_insensitive_partial {α : Type} (dec : Decoder α) (str : List α) (cs : List Nat) (hr : Reads dec str cs)
    (hx : ∀ c ∈ cs, excluded c = false) (ho : InOrder (cs.flatMap Spec.Unicode.decomposition))
    (hc : InOrder (((cs.flatMap Spec.Unicode.decomposition).flatMap Spec.Unicode.caseFolding).flatMap Spec.Unicode.decomposition)) :
    nameHash dec true str = ok (Spec.nameHash true cs) := by
  rw [nameHash_reads dec true Spec.caselessChar str cs hr (fun c hm => hash_agrees c (hx c hm))]
  have e : cs.flatMap Spec.caselessChar = Spec.Unicode.caseless cs := by
    unfold Spec.Unicode.caseless Spec.Unicode.nfd
    rw [order_of_inOrder _ ho, order_of_inOrder _ hc, show Spec.caselessChar = fun c => ((Spec.Unicode.decomposition c).flatMap Spec.Unicode.caseFolding).flatMap
      Spec.Unicode.decomposition from rfl]
    simp only [List.flatMap_assoc]
  rw [e]
  rfl

-- the hypotheses hold of "Straße" in UTF-8
example : nameHash utf8 true (Spec.Utf8.encode [0x53, 0x74, 0x72, 0x61, 0xdf, 0x65]) = ok (Spec.nameHash true [0x53, 0x74, 0x72, 0x61, 0xdf, 0x65]) :=
  c03_case_insensitive_partial utf8 _ [0x53, 0x74, 0x72, 0x61, 0xdf, 0x65]
    ⟨by decide, [], by simpa using decodes_utf8 [0x53, 0x74, 0x72, 0x61, 0xdf, 0x65] (by decide) [], Or.inl rfl⟩ (by decide +kernel) (by decide +kernel)
    (by decide +kernel)

-- "Straße", with a character with two character case folding, and "strasse" in UTF-16 have the same hash
example : Reads utf8 (Spec.Utf8.encode [0x53, 0x74, 0x72, 0x61, 0xdf, 0x65]) [0x53, 0x74, 0x72, 0x61, 0xdf, 0x65] ∧
    Spec.nameHash true [0x53, 0x74, 0x72, 0x61, 0xdf, 0x65] = Spec.nameHash true [0x73, 0x74, 0x72, 0x61, 0x73, 0x73, 0x65] :=
  ⟨⟨by decide, [], by simpa using decodes_utf8 [0x53, 0x74, 0x72, 0x61, 0xdf, 0x65] (by decide) [], Or.inl rfl⟩, by decide +kernel⟩

/-- The name hash of a case-sensitive volume is the specified one. -/
theorem c03_case_sensitive_partial {α : Type} (dec : Decoder α) (str : List α) (cs : List Nat) (hr : Reads dec str cs)
    (hx : ∀ c ∈ cs, excluded c = false) (ho : InOrder (cs.flatMap Spec.Unicode.decomposition)) :
    nameHash dec false str = ok (Spec.nameHash false cs) := by
  rw [nameHash_reads dec false Spec.Unicode.decomposition str cs hr (fun c hm => by
    unfold hashCharacters
    rw [if_neg (by simp)]
    exact decompose_agrees c (hx c hm))]
  have e : cs.flatMap Spec.Unicode.decomposition = Spec.Unicode.nfd cs := by
    unfold Spec.Unicode.nfd
    rw [order_of_inOrder _ ho]
  rw [e]
  rfl

-- "Aé" in UTF-16
example : nameHash utf16 false [0x41, 0xe9] = ok (Spec.nameHash false [0x41, 0xe9]) :=
  c03_case_sensitive_partial utf16 _ [0x41, 0xe9] ⟨by decide, [], decodes_utf16 [0x41, 0xe9] (by decide) [], Or.inl rfl⟩ (by decide +kernel)
    (by decide +kernel)

/-- Two names, in any encodings, whose characters have the same canonical caseless forms have the same hash on a case-insensitive volume. Combining marks
in the wrong order are covered as long as both names have them in the same order. -/
theorem c03_same_form {α β : Type} (da : Decoder α) (db : Decoder β) (a : List α) (b : List β) (cs ds : List Nat) (ha : Reads da a cs) (hb : Reads db b ds)
    (hcs : ∀ c ∈ cs, excluded c = false) (hds : ∀ d ∈ ds, excluded d = false)
    (h : ((cs.flatMap Spec.Unicode.decomposition).flatMap Spec.Unicode.caseFolding).flatMap Spec.Unicode.decomposition =
      ((ds.flatMap Spec.Unicode.decomposition).flatMap Spec.Unicode.caseFolding).flatMap Spec.Unicode.decomposition) :
    ∃ v, nameHash da true a = ok v ∧ nameHash db true b = ok v := by
  have h1 := nameHash_reads da true Spec.caselessChar a cs ha (fun c hm => hash_agrees c (hcs c hm))
  have h2 := nameHash_reads db true Spec.caselessChar b ds hb (fun c hm => hash_agrees c (hds c hm))
  have e : cs.flatMap Spec.caselessChar = ds.flatMap Spec.caselessChar := by
    rw [show Spec.caselessChar = fun c => ((Spec.Unicode.decomposition c).flatMap Spec.Unicode.caseFolding).flatMap Spec.Unicode.decomposition from rfl]
    simpa only [List.flatMap_assoc] using h
  rw [e] at h1
  exact ⟨_, h1, h2⟩

-- "É" precomposed in UTF-16, and "e" followed by U+0301 in UTF-8
example : (([0xc9].flatMap Spec.Unicode.decomposition).flatMap Spec.Unicode.caseFolding).flatMap Spec.Unicode.decomposition =
    (([0x65, 0x301].flatMap Spec.Unicode.decomposition).flatMap Spec.Unicode.caseFolding).flatMap Spec.Unicode.decomposition ∧
    nameHash utf16 true [0xc9] = nameHash utf8 true [0x65, 0xcc, 0x81] := by decide +kernel

/-- what is hashed of a case folded character -/
def foldedForm (r : Res Nat) : List Nat :=
  match (do let f ← r; hashCharacters true f) with
  | ok m => m
  | _ => []

/-- For all characters, also those that are not covered above: characters with the same case folding can be exchanged, the encoding does not matter. -/
theorem c03_fold_invariant {α β : Type} (da : Decoder α) (db : Decoder β) (a : List α) (b : List β) (cs ds : List Nat) (ha : Reads da a cs)
    (hb : Reads db b ds) (h : cs.map fold = ds.map fold) : ∃ v, nameHash da true a = ok v ∧ nameHash db true b = ok v := by
  have hform : ∀ c, hashCharacters true c = ok (foldedForm (fold c)) := by
    intro c
    obtain ⟨f, hf⟩ := fold_ok c
    obtain ⟨m, hm, _⟩ := hashCharacters_ok true f
    have e : hashCharacters true c = hashCharacters true f := by
      unfold hashCharacters
      rw [if_pos rfl, if_pos rfl, hf, fold_idempotent c f hf]
    simp only [foldedForm, hf, ok_bind, hm]
    rw [e, hm]
  have h1 := nameHash_reads da true (fun c => foldedForm (fold c)) a cs ha (fun c _ => hform c)
  have h2 := nameHash_reads db true (fun c => foldedForm (fold c)) b ds hb (fun c _ => hform c)
  have e : ∀ (g : Res Nat → List Nat), cs.flatMap (fun c => g (fold c)) = ds.flatMap (fun c => g (fold c)) := by
    intro g
    have : ∀ l : List Nat, l.flatMap (fun c => g (fold c)) = (l.map fold).flatMap g := by
      intro l; rw [List.flatMap_map]
    rw [this, this, h]
  rw [e] at h1
  exact ⟨_, h1, h2⟩

example : [0x41, 0x1f88].map fold = [0x61, 0x1f80].map fold := by decide +kernel

/-- The hash is below 2^22. -/
theorem c03_bound {α : Type} (dec : Decoder α) (folding : Bool) (str : List α) (v : Nat) (h : nameHash dec folding str = ok v) : v < 2 ^ 22 :=
  nameHash_lt dec folding str v h

/-- Everything after an end-of-string character is ignored. -/
theorem c03_nul {α : Type} (dec : Decoder α) (folding : Bool) (a b ra rb ta tb : List α) (cs : List Nat) (h0 : ∀ c ∈ cs, c ≠ 0) (ha : Decodes dec a cs ra)
    (hb : Decodes dec b cs rb) (na : dec.next ra = some (0, ta)) (nb : dec.next rb = some (0, tb) ∨ rb = []) :
    nameHash dec folding a = nameHash dec folding b := by
  have hform : ∀ c, hashCharacters folding c = ok ((fun c => match hashCharacters folding c with | ok m => m | _ => []) c) := by
    intro c
    obtain ⟨m, hm, _⟩ := hashCharacters_ok folding c
    simp only [hm]
  rw [nameHash_reads dec folding _ a cs ⟨h0, ra, ha, Or.inr ⟨ta, na⟩⟩ (fun c _ => hform c),
    nameHash_reads dec folding _ b cs ⟨h0, rb, hb, by
      rcases nb with h | h
      · exact Or.inr ⟨tb, h⟩
      · exact Or.inl h⟩ (fun c _ => hform c)]

example : nameHash utf8 true [0x61, 0, 0x62] = nameHash utf8 true [0x61] := by decide +kernel

/-- The tables are never read out of bounds; the result is a hash or an error. -/
theorem c03_safe {α : Type} (dec : Decoder α) (folding : Bool) (str : List α) : Safe (nameHash dec folding str) := by
  unfold nameHash
  exact safe_bind (safe_hashLoop dec folding _ str) (fun s _ => safe_ok _)

/-- The hash of a name with a Hangul syllable is not the specified one, in both modes: U+AC01 is not decomposed. -/
theorem c03_hangul : nameHash utf8 true (Spec.Utf8.encode [0xac01]) ≠ ok (Spec.nameHash true [0xac01]) ∧
    nameHash utf8 false (Spec.Utf8.encode [0xac01]) ≠ ok (Spec.nameHash false [0xac01]) := by decide +kernel

/-- Combining marks are not reordered: canonically equivalent names get different hashes, one of which is not the specified one. -/
theorem c03_marks : Spec.Unicode.nfd [0x61, 0x301, 0x323] = Spec.Unicode.nfd [0x61, 0x323, 0x301] ∧
    nameHash utf8 false (Spec.Utf8.encode [0x61, 0x301, 0x323]) ≠ nameHash utf8 false (Spec.Utf8.encode [0x61, 0x323, 0x301]) ∧
    nameHash utf8 false (Spec.Utf8.encode [0x61, 0x301, 0x323]) ≠ ok (Spec.nameHash false [0x61, 0x301, 0x323]) := by decide +kernel

end Verif.Props
