import Verif.Lemmas.XrefTable
/-
  C20, C60: the text of cross-reference tables.
-/
namespace VPdf
open Spec

/-! ### C60 -/

/-- **C60.** Every text of a cross-reference table - any number of subsections in any order, any separators and line
ends, any padding of the numbers - is read as the entries it lists, the last one for a number counting, and its
trailer; reading stops behind the trailer. -/
theorem C60_any_table_is_read (env : Env) (es : List XEntry) (d : Dict) (s rest : Bytes) (h : TableText es d s) :
    ∃ l, readXrefTable env (s ++ b! "\nstartxref\n" ++ rest) = .ok (l, d, b! "\nstartxref\n" ++ rest) ∧ Distinct l ∧
      ∀ n, EntrySet.find n l = (lastEntry n es).map seenEntry := by
  have hf : Follow (b! "\nstartxref\n" ++ rest) := by
    have := skip_keyword sep_lf 0x73 (b! "tartxref") (b! "\n" ++ rest) (by decide) (by decide) (by decide)
      (sep_ends _ _ sep_lf (by simp))
    exact follow_of_token (x := b! "\nstartxref\n" ++ rest) this (by decide) (by decide) (by decide)
  obtain ⟨l, h1, h2, h3⟩ := readXrefTable_text env h _ hf
  refine ⟨l, by rw [List.append_assoc]; exact h1, h2, fun n => ?_⟩
  rw [h3]; simp [EntrySet.find]

/-- Two subsections out of order, the second one repeating number 4; lines end with CR LF and LF. -/
example : ∃ t, TableText [⟨4, 0, .used 12⟩, ⟨3, 7, .free 9⟩, ⟨4, 1, .used 500⟩] [] t ∧
    t = b! "xref\n4 1\n0000000012 00000 n\r\n3 2 %x\n0000000009 00007 f \n500 1 n\ntrailer<<>>" := by
  have line : ∀ {c}, c = b! "\r\n" ∨ c = b! " \n" ∨ c = b! "\n" → Sep c ∧ c ≠ [] := by
    rintro c (rfl | rfl | rfl)
    · exact ⟨.ws 13 _ (by decide) (.ws 10 _ (by decide) .nil), by simp⟩
    · exact ⟨sep_spaceLf, by simp⟩
    · exact ⟨sep_lf, by simp⟩
  have it : ∀ (i : Int) (s : Bytes), s ≠ [] → (∀ c ∈ s, IsDigit c) → i = digitsVal s → IntText i s :=
    fun i s h1 h2 h3 => ⟨s, h1, h2, Or.inl ⟨rfl, h3⟩⟩
  refine ⟨_, .mk _ [] (b! "\n") _ [] (b! "<<>>") sep_lf (by simp)
    (.cons 4 [⟨4, 0, .used 12⟩] [⟨3, 7, .free 9⟩, ⟨4, 1, .used 500⟩] (b! "4") (b! "1") (b! " ") (b! "\n") _ _
      (it _ _ (by simp) (by unfold IsDigit; decide) (by decide)) (by decide)
      (it _ _ (by simp) (by unfold IsDigit; decide) (by decide)) (by decide) sep_space sep_lf (by simp) (by simp)
      (.cons ⟨4, 0, .used 12⟩ [] _ _ (by decide)
        (.used 4 0 12 (b! "0000000012") (b! "00000") (b! " ") (b! " ") (b! "\r\n")
          (it _ _ (by simp) (by unfold IsDigit; decide) (by decide)) (by decide) (by decide)
          (it _ _ (by simp) (by unfold IsDigit; decide) (by decide)) (by decide) sep_space sep_space
          (line (Or.inl rfl)).1 (by simp) (by simp) (by simp)) (.nil _))
      (.cons 3 [⟨3, 7, .free 9⟩, ⟨4, 1, .used 500⟩] [] (b! "3") (b! "2") (b! " ") (b! " %x\n") _ _
        (it _ _ (by simp) (by unfold IsDigit; decide) (by decide)) (by decide)
        (it _ _ (by simp) (by unfold IsDigit; decide) (by decide)) (by decide) sep_space
        (.ws 32 _ (by decide) (.comment (b! "x") 10 [] (by decide) (by decide) .nil)) (by simp) (by simp)
        (.cons ⟨3, 7, .free 9⟩ _ _ _ (by decide)
          (.free 3 7 9 (b! "0000000009") (b! "00007") (b! " ") (b! " ") (b! " \n")
            (it _ _ (by simp) (by unfold IsDigit; decide) (by decide)) (by decide)
            (it _ _ (by simp) (by unfold IsDigit; decide) (by decide)) (by decide) sep_space sep_space
            (line (Or.inr (Or.inl rfl))).1 (by simp) (by simp) (by simp))
          (.cons ⟨4, 1, .used 500⟩ [] _ _ (by decide)
            (.used 4 1 500 (b! "500") (b! "1") (b! " ") (b! " ") (b! "\n")
              (it _ _ (by simp) (by unfold IsDigit; decide) (by decide)) (by decide) (by decide)
              (it _ _ (by simp) (by unfold IsDigit; decide) (by decide)) (by decide) sep_space sep_space
              sep_lf (by simp) (by simp) (by simp)) (.nil _)))
        .nil)) .nil
    (.dict [] [] [] (.nil [] .nil) List.Pairwise.nil (fun _ => rfl)), by decide⟩

/-! ### C20 -/

/-- **C20**, partial: for every table of entries in use or free, with any gaps in the numbers and any trailer, what is
written is read back as a table with the same entries and the same trailer.  Missing: used entries whose object was
released or never set, see `C20_unused_counterexample`. -/
theorem C20_roundtrip_partial (env : Env) (inUse : XEntry → Bool) (l : EntrySet) (d : Dict) (rest : Bytes)
    (hd : Distinct l) (hl : l.length < 18446744073709551616) (hfit : ∀ e ∈ l, Fitting e)
    (hu : ∀ e ∈ l, inUse e = true) (ht : Holdable (.dict d)) :
    ∃ l', readXrefTable env (writeXrefTable inUse l d ++ b! "startxref\n" ++ rest) =
        .ok (l', dropNullsEntries d, b! "\nstartxref\n" ++ rest) ∧
      Distinct l' ∧ ∀ e, e ∈ l' ↔ ∃ x ∈ l, e = seenEntry x := by
  obtain ⟨s, e1, htext⟩ := writeXrefTable_text inUse l d hd hl (fun e he => ⟨hfit e he, hu e he⟩) ht
  obtain ⟨l', h1, h2, h3⟩ := C60_any_table_is_read env _ _ s rest htext
  refine ⟨l', ?_, h2, fun e => ?_⟩
  · rw [e1]; simpa using h1
  · obtain ⟨s1, s2, s3⟩ := sorted_spec hd
    have hlast : ∀ (m : List XEntry), m.Pairwise (fun a b => a.num < b.num) → ∀ x n, lastEntry n m = some x ↔ x ∈ m ∧ x.num = n := by
      intro m hm x n
      have hdm : Distinct m.reverse := by
        unfold Distinct; rw [List.pairwise_reverse]; exact hm.imp (fun h => by omega)
      have := find_iff hdm (n := n) (e := x)
      unfold EntrySet.find at this
      rw [lastEntry, this, List.mem_reverse]
    constructor
    · intro he
      have := h3 e.num
      rw [find_of_mem h2 he] at this
      obtain ⟨x, hx, hxe⟩ := Option.map_eq_some_iff.mp this.symm
      exact ⟨x, (s2 x).mp ((hlast _ s1 x _).mp hx).1, hxe.symm⟩
    · rintro ⟨x, hx, rfl⟩
      have := h3 x.num
      rw [(hlast _ s1 x x.num).mpr ⟨(s2 x).mpr hx, rfl⟩] at this
      exact (find_some this).1

/-- **C20**, the text: what is written is a table text as in ISO 32000-1 7.5.4 that lists each entry once, the numbers of
the next free objects included, in the order of the object numbers. -/
theorem C20_text_is_standard_partial (inUse : XEntry → Bool) (l : EntrySet) (d : Dict) (hd : Distinct l)
    (hl : l.length < 18446744073709551616) (hfit : ∀ e ∈ l, Fitting e) (hu : ∀ e ∈ l, inUse e = true)
    (ht : Holdable (.dict d)) :
    ∃ es s, writeXrefTable inUse l d = s ++ b! "\n" ∧ TableText es (dropNullsEntries d) s ∧
      es.Pairwise (fun a b => a.num < b.num) ∧ es.length = l.length ∧ ∀ e, e ∈ es ↔ e ∈ l := by
  obtain ⟨s, e1, htext⟩ := writeXrefTable_text inUse l d hd hl (fun e he => ⟨hfit e he, hu e he⟩) ht
  obtain ⟨s1, s2, s3⟩ := sorted_spec hd
  exact ⟨_, s, e1, htext, s1, s3, s2⟩

example : ∀ e ∈ [(⟨7, 0, .used 200⟩ : XEntry), ⟨0, 65535, .free 3⟩, ⟨18446744073709551615, 1, .used 99999999999⟩], Fitting e := by
  simp [Fitting]

/-- **C20**, layout: for offsets and numbers of up to ten digits every line has the twenty bytes that ISO 32000-1 7.5.4
prescribes. -/
theorem C20_line_has_twenty_bytes (inUse : XEntry → Bool) (num gen v : Nat) (hg : gen ≤ 65535) (hv : v < 10 ^ 10) :
    (writeTableLine inUse ⟨num, gen, .free v⟩).length = 20 ∧
    (inUse ⟨num, gen, .used v⟩ = true → (writeTableLine inUse ⟨num, gen, .used v⟩).length = 20) := by
  have h1 := fmtZero_length v 9 hv
  have h2 := fmtZero_length gen 4 (by omega)
  constructor
  · simp only [writeTableLine, List.length_append, h1, h2]; rfl
  · intro hu
    simp only [writeTableLine, hu, if_true, List.length_append, h1, h2]; rfl

/-- **C20** fails for a used entry that is not in use: it is counted in the header of its subsection but its line is
left out, and the table cannot be read. -/
theorem C20_unused_counterexample (env : Env) (n g : Nat) (off : Int) (d : Dict) (rest : Bytes)
    (hn : n < 18446744073709551616) :
    readXrefTable env (writeXrefTable (fun _ => false) [⟨n, g, .used off⟩] d ++ rest) = .error .throw := by
  have e1 : writeXrefTable (fun _ => false) [⟨n, g, .used off⟩] d ++ rest =
      0x78 :: b! "ref" ++ (b! "\n" ++ (natDec n ++ (b! " " ++ (natDec 1 ++ (b! "\n" ++
        (0x74 :: b! "railer" ++ (b! "\n" ++ writeObj (.dict d) ++ b! "\n" ++ rest))))))) := by
    simp [writeXrefTable, EntrySet.sorted, insertSorted, writeSubsections, takeRun, writeTableLine]
  have k0 := skip_keyword sep_lf 0x74 (b! "railer") (b! "\n" ++ writeObj (.dict d) ++ b! "\n" ++ rest)
    (by decide) (by decide) (by decide) (by rw [List.append_assoc, List.append_assoc]; exact sep_ends _ _ sep_lf (by simp))
  have k2 := skip_int sep_space (natDec_text 1) _ (sep_ends (b! "\n")
    (0x74 :: b! "railer" ++ (b! "\n" ++ writeObj (.dict d) ++ b! "\n" ++ rest)) sep_lf (by simp))
  have k1 := skip_int sep_lf (natDec_text n) _ (sep_ends (b! " ") (natDec 1 ++ (b! "\n" ++
    (0x74 :: b! "railer" ++ (b! "\n" ++ writeObj (.dict d) ++ b! "\n" ++ rest)))) sep_space (by simp))
  have kx : expectSkip parserKeywords (.keyword (b! "xref")) _ = _ :=
    expectSkip_token (skip_keyword .nil 0x78 (b! "ref") _ (by decide) (by decide) (by decide)
    (sep_ends (b! "\n") (natDec n ++ (b! " " ++ (natDec 1 ++ (b! "\n" ++
        (0x74 :: b! "railer" ++ (b! "\n" ++ writeObj (.dict d) ++ b! "\n" ++ rest)))))) sep_lf (by simp)))
  rw [e1, readXrefTable]
  rw [List.nil_append] at kx
  rw [kx, ok_bind]
  dsimp only
  rw [readSubsections, k1, ok_bind]
  dsimp only
  rw [if_neg (by simp), expectSkip_token k1, ok_bind]
  dsimp only
  rw [expectSkip_token k2, ok_bind]
  dsimp only
  rw [stoull_text (natDec_text n) hn, ok_bind, stoull_text (natDec_text 1) (by decide), ok_bind, readTableEntries,
    safeAddition_index n 0 (by omega), ok_bind, readTableEntry]
  have kt : expectSkip parserKeywords .integer (b! "\n" ++
      (0x74 :: b! "railer" ++ (b! "\n" ++ writeObj (.dict d) ++ b! "\n" ++ rest))) = .error .throw := by
    rw [expectSkip, k0, ok_bind]; rfl
  rw [kt]; rfl

end VPdf
