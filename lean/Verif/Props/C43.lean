import Verif.Lemmas.NameCompare
/-!
# C43 – comparing names
-/
namespace Verif.Props
open Verif Res Name
open Verif.Spec (excluded nameKey caselessChar)

/-- Comparison is the lexicographic order of keys, and the key of a name does not depend on what it is compared with. So it is a total order, with names
that have the same key being equal. This holds for all characters, both modes, and for strings in UTF-8 and UTF-16. -/
theorem c43_order (folding : Bool) : ∃ form : Nat → List Nat, ∀ {α : Type} (dn : Decoder UInt8) (dq : Decoder α) (name : Bytes) (str : List α) (ns qs : List Nat),
    name ≠ [] → NameOf dn name ns → NameOf dq str qs → ∃ o, compareName dn dq folding name str = ok o ∧
      (o = .less ↔ nameKey form qs < nameKey form ns) ∧ (o = .greater ↔ nameKey form ns < nameKey form qs) ∧
      (o = .equal ↔ nameKey form qs = nameKey form ns) := by
  refine ⟨compareForm folding, fun dn dq name str ns qs h0 hn hq => ?_⟩
  obtain ⟨o, h1, h2⟩ := compareName_key dn dq folding (compareForm folding) name str ns qs h0 hn hq (fun c _ => compareForm_eq folding c)
    (fun c _ => compareForm_eq folding c)
  exact ⟨o, h1, ordered_less h2, ordered_greater h2, ordered_equal h2⟩

/-- On case-sensitive volumes the key is made of the canonical decompositions. -/
theorem c43_case_sensitive {α : Type} (dn : Decoder UInt8) (dq : Decoder α) (name : Bytes) (str : List α) (ns qs : List Nat) (h0 : name ≠ [])
    (hn : NameOf dn name ns) (hq : NameOf dq str qs) (xn : ∀ c ∈ ns, excluded c = false) (xq : ∀ c ∈ qs, excluded c = false) :
    ∃ o, compareName dn dq false name str = ok o ∧
      (o = .less ↔ nameKey Spec.Unicode.decomposition qs < nameKey Spec.Unicode.decomposition ns) ∧
      (o = .greater ↔ nameKey Spec.Unicode.decomposition ns < nameKey Spec.Unicode.decomposition qs) ∧
      (o = .equal ↔ nameKey Spec.Unicode.decomposition qs = nameKey Spec.Unicode.decomposition ns) := by
  have hf : ∀ c, excluded c = false → compareMapping false c = ok (Spec.Unicode.decomposition c) := by
    intro c hc
    unfold compareMapping
    rw [if_neg (by simp)]
    exact decompose_agrees c hc
  obtain ⟨o, h1, h2⟩ := compareName_key dn dq false Spec.Unicode.decomposition name str ns qs h0 hn hq (fun c hc => hf c (xn c hc))
    (fun c hc => hf c (xq c hc))
  exact ⟨o, h1, ordered_less h2, ordered_greater h2, ordered_equal h2⟩

-- a stored name with end-of-string character, compared with a UTF-16 string
example : NameOf utf8 [0xc3, 0x85, 0x62, 0] [0xc5, 0x62] ∧ NameOf utf16 [0x212b, 0x63] [0x212b, 0x63] ∧
    compareName utf8 utf16 false [0xc3, 0x85, 0x62, 0] [0x212b, 0x63] = ok .greater ∧
    compareName utf8 utf16 false [0xc3, 0x85, 0x62, 0] [0x212b, 0x62] = ok .equal := by
  refine ⟨?_, ?_, by decide +kernel, by decide +kernel⟩
  · exact .step (t := [0x62]) (by decide) (.step (t := []) (by decide) (.done []))
  · exact .step (t := [0x63]) (by decide) (.step (t := []) (by decide) (.done []))

/-- On case-insensitive volumes the key is made of the canonical caseless forms, for characters with a case folding of one character. -/
theorem c43_case_insensitive {α : Type} (dn : Decoder UInt8) (dq : Decoder α) (name : Bytes) (str : List α) (ns qs : List Nat) (h0 : name ≠ [])
    (hn : NameOf dn name ns) (hq : NameOf dq str qs) (xn : ∀ c ∈ ns, excluded c = false ∧ (Spec.Unicode.caseFolding c).length = 1)
    (xq : ∀ c ∈ qs, excluded c = false ∧ (Spec.Unicode.caseFolding c).length = 1) :
    ∃ o, compareName dn dq true name str = ok o ∧ (o = .less ↔ nameKey caselessChar qs < nameKey caselessChar ns) ∧
      (o = .greater ↔ nameKey caselessChar ns < nameKey caselessChar qs) ∧ (o = .equal ↔ nameKey caselessChar qs = nameKey caselessChar ns) := by
  obtain ⟨o, h1, h2⟩ := compareName_key dn dq true caselessChar name str ns qs h0 hn hq (fun c hc => compare_agrees c (xn c hc).1 (xn c hc).2)
    (fun c hc => compare_agrees c (xq c hc).1 (xq c hc).2)
  exact ⟨o, h1, ordered_less h2, ordered_greater h2, ordered_equal h2⟩

example : (∀ c ∈ [0x41, 0xc9], excluded c = false ∧ (Spec.Unicode.caseFolding c).length = 1) ∧
    compareName utf8 utf8 true [0x61, 0xc3, 0xa9, 0] [0x41, 0xc3, 0x89] = ok .equal := by decide +kernel

/-- Names that compare equal on a case-sensitive volume have the same Normalization Form D. -/
theorem c43_equal_nfd {α : Type} (dn : Decoder UInt8) (dq : Decoder α) (name : Bytes) (str : List α) (ns qs : List Nat) (h0 : name ≠ [])
    (hn : NameOf dn name ns) (hq : NameOf dq str qs) (xn : ∀ c ∈ ns, excluded c = false) (xq : ∀ c ∈ qs, excluded c = false)
    (h : compareName dn dq false name str = ok .equal) : Spec.Unicode.nfd qs = Spec.Unicode.nfd ns := by
  have hf : ∀ c, excluded c = false → compareForm false c = Spec.Unicode.decomposition c := by
    intro c hc
    have h1 := compareForm_eq false c
    unfold compareMapping at h1
    rw [if_neg (by simp), decompose_agrees c hc] at h1
    exact (Res.ok.inj h1).symm
  obtain ⟨o, h1, h2⟩ := compareName_key dn dq false (compareForm false) name str ns qs h0 hn hq (fun c _ => compareForm_eq false c)
    (fun c _ => compareForm_eq false c)
  rw [h] at h1
  cases h1
  have hk := (ordered_equal h2).1 rfl
  have hm := nameKey_inj _ _ _ (fun c hc => compareMapping_lt false c _ (decodes_lt hq c hc) (compareForm_eq false c))
    (fun c hc => compareMapping_lt false c _ (decodes_lt hn c hc) (compareForm_eq false c)) hk
  unfold Spec.Unicode.nfd
  have e : ∀ l : List Nat, (∀ c ∈ l, excluded c = false) → l.flatMap Spec.Unicode.decomposition = (l.map (compareForm false)).flatten := by
    intro l hl
    rw [List.flatMap]
    congr 1
    exact List.map_congr_left (fun c hc => (hf c (hl c hc)).symm)
  rw [e qs xq, e ns xn, hm]

/-- Names that compare equal on a case-insensitive volume have the same characters up to canonical caseless form, also with case foldings of more than one
character, and therefore the same specified name hash form. -/
theorem c43_equal_caseless {α : Type} (dn : Decoder UInt8) (dq : Decoder α) (name : Bytes) (str : List α) (ns qs : List Nat) (h0 : name ≠ [])
    (hn : NameOf dn name ns) (hq : NameOf dq str qs) (xn : ∀ c ∈ ns, excluded c = false) (xq : ∀ c ∈ qs, excluded c = false)
    (h : compareName dn dq true name str = ok .equal) : qs.map caselessChar = ns.map caselessChar := by
  obtain ⟨o, h1, h2⟩ := compareName_key dn dq true (compareForm true) name str ns qs h0 hn hq (fun c _ => compareForm_eq true c)
    (fun c _ => compareForm_eq true c)
  rw [h] at h1
  cases h1
  have hk := (ordered_equal h2).1 rfl
  have hm := nameKey_inj _ _ _ (fun c hc => compareMapping_lt true c _ (decodes_lt hq c hc) (compareForm_eq true c))
    (fun c hc => compareMapping_lt true c _ (decodes_lt hn c hc) (compareForm_eq true c)) hk
  have hf : ∀ c, excluded c = false →
      caselessChar c = ((compareForm true c).flatMap Spec.Unicode.caseFolding).flatMap Spec.Unicode.decomposition := by
    intro c hc
    obtain ⟨m, hm, e⟩ := compare_caseless c hc
    have h1 := compareForm_eq true c
    rw [hm] at h1
    rw [← Res.ok.inj h1]
    exact e
  have e : ∀ l : List Nat, (∀ c ∈ l, excluded c = false) →
      l.map caselessChar = (l.map (compareForm true)).map (fun m => (m.flatMap Spec.Unicode.caseFolding).flatMap Spec.Unicode.decomposition) := by
    intro l hl
    rw [List.map_map]
    exact List.map_congr_left (fun c hc => hf c (hl c hc))
  rw [e qs xq, e ns xn, hm]

-- U+1E9E and U+00DF compare equal, and have the caseless form "ss"
example : compareName utf8 utf16 true [0xc3, 0x9f, 0] [0x1e9e] = ok .equal ∧ caselessChar 0x1e9e = [0x73, 0x73] := by decide +kernel

/-- Names that compare equal on a case-insensitive volume have the same name hash. -/
theorem c43_equal_hash {α : Type} (dn : Decoder UInt8) (dq : Decoder α) (name : Bytes) (str : List α) (ns qs : List Nat) (h0 : name ≠ [])
    (hn : NameOf dn name ns) (hq : NameOf dq str qs) (rn : Reads dn name ns) (rq : Reads dq str qs) (xn : ∀ c ∈ ns, excluded c = false)
    (xq : ∀ c ∈ qs, excluded c = false) (h : compareName dn dq true name str = ok .equal) :
    ∃ v, nameHash dn true name = ok v ∧ nameHash dq true str = ok v := by
  have hk := c43_equal_caseless dn dq name str ns qs h0 hn hq xn xq h
  have h1 := nameHash_reads dn true caselessChar name ns rn (fun c hm => hash_agrees c (xn c hm))
  have h2 := nameHash_reads dq true caselessChar str qs rq (fun c hm => hash_agrees c (xq c hm))
  refine ⟨_, h1, ?_⟩
  rw [h2, List.flatMap, List.flatMap, hk]

-- a stored name with end-of-string character, "é" and "É"
example : NameOf utf8 [0xc3, 0xa9, 0] [0xe9] ∧ Reads utf8 [0xc3, 0xa9, 0] [0xe9] ∧ NameOf utf16 [0xc9] [0xc9] ∧ Reads utf16 [0xc9] [0xc9] ∧
    compareName utf8 utf16 true [0xc3, 0xa9, 0] [0xc9] = ok .equal :=
  ⟨.step (t := []) (by decide) (.done []), ⟨by decide, [0], .step (t := [0]) (by decide) (.done [0]), Or.inr ⟨[], by decide⟩⟩,
    .step (t := []) (by decide) (.done []), ⟨by decide, [], .step (t := []) (by decide) (.done []), Or.inl rfl⟩, by decide +kernel⟩

/-- Names of which all characters have been decomposed before, and have the same Normalization Form D without reordering, compare equal. In general
this is false, see `c43_composed`. -/
theorem c43_equal_complete_partial {α : Type} (dn : Decoder UInt8) (dq : Decoder α) (name : Bytes) (str : List α) (ns qs : List Nat) (h0 : name ≠ [])
    (hn : NameOf dn name ns) (hq : NameOf dq str qs) (xn : ∀ c ∈ ns, excluded c = false ∧ Spec.Unicode.decomposition c = [c])
    (xq : ∀ c ∈ qs, excluded c = false ∧ (Spec.Unicode.decomposition c).length = 1)
    (h : qs.flatMap Spec.Unicode.decomposition = ns.flatMap Spec.Unicode.decomposition) : compareName dn dq false name str = ok .equal := by
  obtain ⟨o, h1, _, _, h2⟩ := c43_case_sensitive dn dq name str ns qs h0 hn hq (fun c hc => (xn c hc).1) (fun c hc => (xq c hc).1)
  have hk : nameKey Spec.Unicode.decomposition qs = nameKey Spec.Unicode.decomposition ns := by
    have e : ∀ l : List Nat, (∀ c ∈ l, (Spec.Unicode.decomposition c).length = 1) →
        nameKey Spec.Unicode.decomposition l = (l.flatMap Spec.Unicode.decomposition).flatMap (fun d => [d, 2 ^ 32]) := by
      intro l hl
      unfold nameKey
      rw [List.flatMap_assoc]
      refine flatMap_congr' _ _ _ (fun c hc => ?_)
      have := hl c hc
      match hd : Spec.Unicode.decomposition c, this with
      | [d], _ => rfl
    rw [e qs (fun c hc => (xq c hc).2), e ns (fun c hc => by rw [(xn c hc).2]; rfl), h]
  rw [h1, h2.2 hk]

example : compareName utf8 utf8 false [0x65, 0xcc, 0x81] [0x65, 0xcc, 0x81, 0] = ok .equal := by decide +kernel

/-- A precomposed and a decomposed name are canonically equivalent and have the same name hash, but do not compare equal in either mode. -/
theorem c43_composed : Spec.Unicode.nfd [0xe9] = Spec.Unicode.nfd [0x65, 0x301] ∧
    nameHash utf8 false (Spec.Utf8.encode [0xe9]) = nameHash utf8 false (Spec.Utf8.encode [0x65, 0x301]) ∧
    compareName utf8 utf8 false (Spec.Utf8.encode [0xe9]) (Spec.Utf8.encode [0x65, 0x301]) ≠ ok .equal ∧
    compareName utf8 utf8 true (Spec.Utf8.encode [0xe9]) (Spec.Utf8.encode [0x65, 0x301]) ≠ ok .equal := by decide +kernel

/-- Case foldings of more than one character are used for the name hash but not for comparison: "straße" and "STRASSE" have the same name hash and caseless
form but do not compare equal. -/
theorem c43_special_folding : Spec.Unicode.caseless [0x73, 0x74, 0x72, 0x61, 0xdf, 0x65] = Spec.Unicode.caseless [0x53, 0x54, 0x52, 0x41, 0x53, 0x53, 0x45] ∧
    nameHash utf8 true (Spec.Utf8.encode [0x73, 0x74, 0x72, 0x61, 0xdf, 0x65]) =
      nameHash utf8 true (Spec.Utf8.encode [0x53, 0x54, 0x52, 0x41, 0x53, 0x53, 0x45]) ∧
    compareName utf8 utf8 true (Spec.Utf8.encode [0x73, 0x74, 0x72, 0x61, 0xdf, 0x65]) (Spec.Utf8.encode [0x53, 0x54, 0x52, 0x41, 0x53, 0x53, 0x45]) ≠
      ok .equal := by decide +kernel

/-- The order is not the one of the normalised names: "ez" is before "é" in Normalization Form D but compares greater. -/
theorem c43_not_form_order : Spec.Unicode.nfd [0x65, 0x7a] < Spec.Unicode.nfd [0xe9] ∧
    compareName utf8 utf8 false (Spec.Utf8.encode [0xe9]) (Spec.Utf8.encode [0x65, 0x7a]) = ok .greater := by decide +kernel

/-- The tables are never read out of bounds; the result is an order or an error. -/
theorem c43_safe {α : Type} (dn : Decoder UInt8) (dq : Decoder α) (folding : Bool) (name : Bytes) (str : List α) :
    Safe (compareName dn dq folding name str) := safe_compareName dn dq folding name str

end Verif.Props
