import Verif.Lemmas.CharMapParser
import Verif.Props.CharMap
/-
  C82: reading of character maps.
-/
namespace VPdf
open Spec

/-- **C82.**  The map read from a text has exactly the code space ranges, ranges and characters, in the order of the text, and the
definitions of the text; all other tokens are skipped.
Missing: sections `cidchar` and `notdefchar` with integers, and `CIDSystemInfo` defined by `dict dup begin`; see the
counterexamples. -/
theorem C82_read_partial (e : Env) (m : CMapData) (s : Bytes) (h : CMapText m s) : readCMap e s = .ok m :=
  readCMap_text e h

/-- **C82, lookup of single characters.**  A key of the code space that no range contains gets the destination of its entry among the
single characters of the text. -/
theorem C82_char (e : Env) (m : CMapData) (s key v : Bytes) (h : CMapText m s)
    (hc : ∃ c ∈ m.codeSpace, c.1.length = c.2.length ∧ InRange c.1 c.2 key)
    (hr : ∀ r ∈ m.bfRanges, r.low.length = r.high.length ∧ ¬InRange r.low r.high key)
    (hv : (key, v) ∈ m.bfChars) (hu : ∀ v', (key, v') ∈ m.bfChars → v' = v) : mappedValue e s key = .ok v := by
  obtain ⟨c, hc, hl, hin⟩ := hc
  have hin : (FontRange.mk c.1 c.2 .null).contains key = true := (C49_contains ⟨c.1, c.2, .null⟩ key hl).2 hin
  unfold FontRange.contains at hin
  rw [Bool.and_eq_true] at hin
  unfold mappedValue
  rw [readCMap_text e h, ok_bind]
  refine ((C71_lookup m.unicode key).2.2 c hc hin.1 hin.2).2 ?_ (key, v) hv rfl ?_
  · intro r hr'
    obtain ⟨h1, h2⟩ := hr r hr'
    rw [← Bool.not_eq_true, C49_contains r key h1]; exact h2
  · rintro ⟨k, v'⟩ hm rfl
    rw [hu v' hm]

/-- **C82, lookup in ranges.**  A key of the code space in exactly one range whose destination is a string gets the destination
plus the distance of the key from the low end.
Missing: as in `C49_string_partial`, sums that do not fit and strings of more than four bytes. -/
theorem C82_range_partial (e : Env) (m : CMapData) (s key v : Bytes) (h : CMapText m s)
    (hc : ∃ c ∈ m.codeSpace, c.1.length = c.2.length ∧ InRange c.1 c.2 key) (r : FontRange) (hm : r ∈ m.bfRanges)
    (hl : ∀ r' ∈ m.bfRanges, r'.low.length = r'.high.length) (hd : r.dest = .hex v) (hk : InRange r.low r.high key)
    (hu : ∀ r' ∈ m.bfRanges, InRange r'.low r'.high key → r' = r) (h4 : r.low.length ≤ 4) (hv : v.length ≤ 4)
    (hfit : bigEndian v + (bigEndian key - bigEndian r.low) < 256 ^ v.length) :
    ∃ w, mappedValue e s key = .ok w ∧ w.length = v.length ∧ bigEndian w = bigEndian v + (bigEndian key - bigEndian r.low) := by
  obtain ⟨c, hc, hlc, hin⟩ := hc
  have hin : (FontRange.mk c.1 c.2 .null).contains key = true := (C49_contains ⟨c.1, c.2, .null⟩ key hlc).2 hin
  unfold FontRange.contains at hin
  rw [Bool.and_eq_true] at hin
  unfold mappedValue
  rw [readCMap_text e h, ok_bind]
  rw [((C71_lookup m.unicode key).2.2 c hc hin.1 hin.2).1 r hm ((C49_contains r key (hl r hm)).2 hk)
    (fun r' hr' hc' => hu r' hr' ((C49_contains r' key (hl r' hr')).1 hc'))]
  exact C49_string_partial r key v (hl r hm) hd hk h4 hv hfit

/-- The words around a section of pairs. -/
def pairSections : List (Bytes × Bytes) :=
  [(b! "begincodespacerange", b! "endcodespacerange"), (b! "beginbfchar", b! "endbfchar"),
   (b! "beginnotdefchar", b! "endnotdefchar"), (b! "begincidchar", b! "endcidchar")]

/-- The words around a section of ranges. -/
def rangeSections : List (Bytes × Bytes) :=
  [(b! "beginbfrange", b! "endbfrange"), (b! "beginnotdefrange", b! "endnotdefrange"), (b! "begincidrange", b! "endcidrange")]

/-- **C82, wrong number.**  A section whose number of entries differs from the number in front of it is reported as an error,
wherever it stands in the text: no entry is dropped or taken from elsewhere. -/
theorem C82_count (e : Env) (m : CMapData) (s tn sep u rest : Bytes) (n : Int) (hn : IntText n tn) (h1 : -9223372036854775808 ≤ n)
    (h2 : n ≤ 9223372036854775807) (hs : Sep sep) (hne : sep ≠ []) (hu : EndsToken u) (hu0 : u ≠ []) (hr : EndsToken rest) :
    (∀ w ∈ pairSections, ∀ l, CodePairsText w.2 l u → n.toNat ≠ l.length → MapText (tn ++ sep ++ w.1 ++ (u ++ rest)) m s →
      readCMap e s = .error .throw) ∧
    (∀ w ∈ rangeSections, ∀ l, RangesText w.2 l u → n.toNat ≠ l.length → MapText (tn ++ sep ++ w.1 ++ (u ++ rest)) m s →
      readCMap e s = .error .throw) := by
  have hu' : EndsToken (u ++ rest) := by
    cases u with
    | nil => exact absurd rfl hu0
    | cons c u => intro d hd; exact hu d (by simpa using hd)
  have pw : ∀ w ∈ pairSections, w.1 ∈ sectionWords ∧ plainWord w.2 = true := by decide
  have rw' : ∀ w ∈ rangeSections, w.1 ∈ sectionWords ∧ plainWord w.2 = true ∧ w.2 ≠ b! "stream" ∧ w.2 ≠ b! "R" := by decide
  constructor
  · intro w hw l hl hcount h
    obtain ⟨w1, w2⟩ := pw w hw
    refine readCMap_bad e hn h1 h2 hs hne w1 hu' h (fun acc hst => ?_)
    have key : ∀ ew (f : List (Bytes × Bytes) × Bytes → CMapData × Bytes), ew = w.2 → (do
        let n ← stoll tn
        let (l, s) ← readPairs n.toNat (u ++ rest)
        let s ← expectWord ew s
        pure (f (l, s)) : Res (CMapData × Bytes)) = .error .throw := by
      rintro ew f rfl
      rw [hst, ok_bind]
      rcases readPairs_count w2 hl rest hr _ hcount with g | ⟨l', r, v, r', g1, g2⟩
      · rw [g]; rfl
      · rw [g1, ok_bind]
        dsimp only
        rw [expectWord_other g2 (by simp)]; rfl
    simp only [pairSections, List.mem_cons, List.not_mem_nil, or_false] at hw
    rcases hw with rfl | rfl | rfl | rfl
    · exact congrArg some (key _ (fun p => ({ acc with codeSpace := acc.codeSpace ++ p.1 }, p.2)) rfl)
    · exact congrArg some (key _ (fun p => ({ acc with bfChars := acc.bfChars ++ p.1 }, p.2)) rfl)
    · exact congrArg some (key _ (fun p => ({ acc with notdefChars := acc.notdefChars ++ p.1 }, p.2)) rfl)
    · exact congrArg some (key _ (fun p => ({ acc with cidChars := acc.cidChars ++ p.1 }, p.2)) rfl)
  · intro w hw l hl hcount h
    obtain ⟨w1, w2, w3, w4⟩ := rw' w hw
    refine readCMap_bad e hn h1 h2 hs hne w1 hu' h (fun acc hst => ?_)
    have key : ∀ ew (f : List FontRange × Bytes → CMapData × Bytes), ew = w.2 → (do
        let n ← stoll tn
        let (l, s) ← readRanges e n.toNat (u ++ rest)
        let s ← expectWord ew s
        pure (f (l, s)) : Res (CMapData × Bytes)) = .error .throw := by
      rintro ew f rfl
      rw [hst, ok_bind]
      rcases readRanges_count e w2 w3 w4 hl rest hr _ hcount with g | ⟨l', r, v, r', g1, g2⟩
      · rw [g]; rfl
      · rw [g1, ok_bind]
        dsimp only
        rw [expectWord_other g2 (by simp)]; rfl
    simp only [rangeSections, List.mem_cons, List.not_mem_nil, or_false] at hw
    rcases hw with rfl | rfl | rfl
    · exact congrArg some (key _ (fun p => ({ acc with bfRanges := acc.bfRanges ++ p.1 }, p.2)) rfl)
    · exact congrArg some (key _ (fun p => ({ acc with notdefRanges := acc.notdefRanges ++ p.1 }, p.2)) rfl)
    · exact congrArg some (key _ (fun p => ({ acc with cidRanges := acc.cidRanges ++ p.1 }, p.2)) rfl)

/-- **C82 fails for `cidchar` and `notdefchar`.**  Their destinations are integers in the standard; the library insists on strings.
One such section, wherever it stands, makes the whole map unreadable: every lookup is an error. -/
theorem C82_integer_counterexample (e : Env) (m : CMapData) (s tn sep t rest a : Bytes) (n i : Int) (hn : IntText n tn) (h1 : 1 ≤ n)
    (h2 : n ≤ 9223372036854775807) (hs : Sep sep) (hne : sep ≠ []) (ht : IntPair a i t) (he : EndsToken t) (hr : EndsToken rest)
    (w : Bytes) (hw : w = b! "begincidchar" ∨ w = b! "beginnotdefchar") (h : MapText (tn ++ sep ++ w ++ (t ++ rest)) m s) (key : Bytes) :
    mappedValue e s key = .error .throw := by
  obtain ⟨sep1, ta, sep2, ti, g1, g2, g3, g4, rfl⟩ := ht
  have hu' : EndsToken (sep1 ++ ta ++ sep2 ++ ti ++ rest) := by
    obtain ⟨x, rfl, -⟩ := hex_shape g2
    intro d hd
    refine he d ?_
    cases sep1 <;> simpa using hd
  have hw' : w ∈ sectionWords := by rcases hw with rfl | rfl <;> decide
  have assoc : sep1 ++ ta ++ sep2 ++ ti ++ rest = sep1 ++ (ta ++ (sep2 ++ (ti ++ rest))) := by simp
  have key' : ∀ k : Nat, 1 ≤ k → readPairs k (sep1 ++ ta ++ sep2 ++ ti ++ rest) = .error .throw := by
    intro k hk
    obtain ⟨k, rfl⟩ : ∃ j, k = j + 1 := ⟨k - 1, by omega⟩
    rw [readPairs, assoc, readHexadecimal_text g2 g1, ok_bind]
    dsimp only
    rw [readHexadecimal_other (intToken g4 g3 rest hr) (by simp)]; rfl
  unfold mappedValue
  rw [readCMap_bad e hn (by omega) h2 hs hne hw' hu' h]
  · rfl
  · intro acc hst
    rcases hw with rfl | rfl
    · show some (stoll tn >>= _) = _
      rw [hst, ok_bind, key' _ (by omega)]; rfl
    · show some (stoll tn >>= _) = _
      rw [hst, ok_bind, key' _ (by omega)]; rfl

/-- **C82 fails for `/CIDSystemInfo 3 dict dup begin`.**  This form, the one of the examples of Adobe Technical Note #5014, makes the
whole map unreadable. -/
theorem C82_dict_counterexample (e : Env) (m : CMapData) (s tk sep tn rest : Bytes) (n : Int) (hk : NameBody (b! "CIDSystemInfo") tk)
    (hs : Sep sep) (hne : sep ≠ []) (hn : IntText n tn) (hr : EndsToken rest)
    (h : MapText (47 :: (tk ++ (sep ++ (tn ++ rest)))) m s) (key : Bytes) : mappedValue e s key = .error .throw := by
  have t1 := nameToken hk .nil (sep ++ (tn ++ rest)) (sep_ends _ _ hs hne)
  have t2 := intToken hn hs rest hr
  obtain ⟨f, sep', hs', hf, heq⟩ := readCMap_tail e (ahead_of t1 (by simp)) h
  obtain ⟨f, rfl⟩ : ∃ g, f = g + 1 := ⟨f - 1, by omega⟩
  have t1' := nameToken hk hs' (sep ++ (tn ++ rest)) (sep_ends _ _ hs hne)
  unfold mappedValue
  rw [heq, List.nil_append, readCMapN_name e f m t1' t2]
  unfold readDefinition expectSkip
  rw [if_pos rfl, t2]
  rfl

/-! ### Examples -/

theorem sampleSpace : Sep (b! " ") := .ws _ _ (by decide) .nil

/-- A hexadecimal string of two digits is its text. -/
theorem sampleHex (v t : Bytes) (h : hexBytes (hexDigitsOf t) = some v) : Denotes (.hex v) (60 :: (t ++ [62])) := .hex v t h

/-- The text of a map with one code space range and two single characters. -/
def sampleMapText : Bytes :=
  b! "begincmap 1 begincodespacerange <00> <FF> endcodespacerange 2 beginbfchar <41><0061><42><0062> endbfchar endcmap"

theorem sampleMap_text :
    CMapText { codeSpace := [([0], [0xFF])], bfChars := [([0x41], [0, 0x61]), ([0x42], [0, 0x62])] } sampleMapText := by
  have hw : ∀ w : Bytes, plainWord w = true → w ∉ sectionWords → OtherToken w := by
    intro w h h'
    cases w with
    | nil => simp [plainWord] at h
    | cons c w =>
      simp only [plainWord, Bool.and_eq_true, List.all_eq_true, List.head?_cons, Option.all_some] at h
      have hreg : ∀ c : Byte, isRegular c = true → c ∉ whiteSpace ++ delimiters := by apply forall_byte; decide +kernel
      refine .word _ (by simp) (fun d hd => hreg d (h.1.2 d hd)) ?_ h'
      intro d hd
      cases hd
      rw [isDigit_iff]
      simpa [and_assoc] using h.2
  refine .other _ [] (b! "begincmap") _ .nil (hw _ (by decide) (by decide)) (Or.inr (by intro d hd; cases hd; decide)) ?_
  refine .codeSpace { bfChars := [([0x41], [0, 0x61]), ([0x42], [0, 0x62])] } [([0], [0xFF])] (b! " ") (b! " <00> <FF> endcodespacerange")
    (b! "1 begincodespacerange <00> <FF> endcodespacerange") (b! " 2 beginbfchar <41><0061><42><0062> endbfchar endcmap")
    sampleSpace ?_ ?_ (by intro d hd; cases hd; decide) ?_
  · exact .cons _ _ _ (b! " ") (b! "<00>") (b! " ") (b! "<FF>") _ sampleSpace (sampleHex _ (b! "00") rfl) sampleSpace
      (sampleHex _ (b! "FF") rfl) (.done _ sampleSpace)
  · exact ⟨b! "1", b! " ", natDec_text 1, by decide, sampleSpace, by decide, by intro d hd; cases hd; decide, rfl⟩
  refine .bfChar { } [([0x41], [0, 0x61]), ([0x42], [0, 0x62])] (b! " ") (b! " <41><0061><42><0062> endbfchar")
    (b! "2 beginbfchar <41><0061><42><0062> endbfchar") (b! " endcmap") sampleSpace ?_ ?_ (by intro d hd; cases hd; decide) ?_
  · exact .cons _ _ _ (b! " ") (b! "<41>") [] (b! "<0061>") _ sampleSpace (sampleHex _ (b! "41") rfl) .nil
      (sampleHex _ (b! "0061") rfl) (.cons _ _ _ [] (b! "<42>") [] (b! "<0062>") _ .nil (sampleHex _ (b! "42") rfl) .nil
      (sampleHex _ (b! "0062") rfl) (.done _ sampleSpace))
  · exact ⟨b! "2", b! " ", natDec_text 2, by decide, sampleSpace, by decide, by intro d hd; cases hd; decide, rfl⟩
  exact .other _ (b! " ") (b! "endcmap") [] sampleSpace (hw _ (by decide) (by decide)) (Or.inr (by intro d hd; cases hd))
    (.done [] .nil)

example (e : Env) : mappedValue e sampleMapText [0x42] = .ok [0, 0x62] :=
  C82_char e _ _ _ _ sampleMap_text ⟨_, List.mem_singleton.2 rfl, rfl, by decide⟩ (by intro r hr; cases hr) (by decide)
    (by intro v' h; simpa using h)

example (e : Env) (key : Bytes) : mappedValue e (b! "1 begincidchar <20> 1 endcidchar") key = .error .throw :=
  C82_integer_counterexample e {} _ (b! "1") (b! " ") (b! " <20> 1") (b! " endcidchar") [0x20] 1 1 (natDec_text 1) (by decide) (by decide)
    sampleSpace (by decide) ⟨b! " ", b! "<20>", b! " ", b! "1", sampleSpace, sampleHex _ (b! "20") rfl, sampleSpace, natDec_text 1, rfl⟩
    (by intro d hd; cases hd; decide) (by intro d hd; cases hd; decide) _ (Or.inl rfl) (.done [] .nil) key

example (e : Env) (key : Bytes) : mappedValue e (b! "/CIDSystemInfo 3 dict dup begin") key = .error .throw :=
  C82_dict_counterexample e {} _ (b! "CIDSystemInfo") (b! " ") (b! "3") (b! " dict dup begin") 3
    (encodeName_body (b! "CIDSystemInfo")) sampleSpace (by decide) (natDec_text 3) (by intro d hd; cases hd; decide) (.done [] .nil) key

example (e : Env) : readCMap e (b! "2 beginbfchar <41><0061> endbfchar") = .error .throw :=
  (C82_count e {} _ (b! "2") (b! " ") (b! " <41><0061> endbfchar") [] 2 (natDec_text 2) (by decide) (by decide) sampleSpace (by decide)
    (by intro d hd; cases hd; decide) (by decide) (by intro d hd; cases hd)).1 (b! "beginbfchar", b! "endbfchar") (by decide)
    [([0x41], [0, 0x61])] (.cons _ _ _ (b! " ") (b! "<41>") [] (b! "<0061>") _ sampleSpace (sampleHex _ (b! "41") rfl) .nil
      (sampleHex _ (b! "0061") rfl) (.done _ sampleSpace)) (by decide) (.done [] .nil)

end VPdf
