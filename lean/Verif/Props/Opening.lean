import Verif.Lemmas.Opening
/-
  C22, C23, C24, C54: opening a file.
-/
namespace VPdf
open Spec

/-! ### C54 -/

/-- **C54.** Reading a line returns the bytes up to the first CR, LF or CR LF and leaves what is behind it; the line, its
end and the rest make up the input. -/
theorem C54_first_line (s l r : Bytes) : readLine s = (l, r) ↔ FirstLine s l r := by
  constructor
  · intro h
    have := readLine_first s
    rwa [h] at this
  · exact readLine_of_first

example : FirstLine (b! "a b\r\n\nc") (b! "a b") (b! "\nc") := ⟨by decide, Or.inl rfl⟩
example : FirstLine (b! "a b\r\rc") (b! "a b") (b! "\rc") := ⟨by decide, Or.inr (Or.inr (Or.inl ⟨rfl, by decide⟩))⟩

/-- **C54**, all lines: reading lines until nothing is left loses no byte: each step removes the line and its end from the
front, and it removes at least one byte. -/
theorem C54_progress (s : Bytes) (hs : s ≠ []) :
    ∃ e : Bytes, s = (readLine s).1 ++ e ++ (readLine s).2 ∧ e ∈ [[13, 10], [10], [13], ([] : Bytes)] ∧
      (readLine s).2.length < s.length := by
  have hlt := (readLine_suffix s).2 hs
  obtain ⟨_, h | h | ⟨h, _⟩ | ⟨h, h2⟩⟩ := readLine_first s
  · exact ⟨[13, 10], h, by simp, hlt⟩
  · exact ⟨[10], h, by simp, hlt⟩
  · exact ⟨[13], h, by simp, hlt⟩
  · exact ⟨[], by rw [h2]; simpa using h, by simp, hlt⟩

/-! ### C23 -/

theorem header_line_read {s l r : Bytes} (h : FirstLine s l r) (hs : s ≠ []) (f : Nat) (a b : Byte)
    (hl : headerDigits l = some (a, b)) (v : Res PdfVersion) (hv : headerVersion a b = some v) :
    readHeaderLoop (f + 1) s = v.map (fun v => (v, r)) := by
  cases s with
  | nil => exact absurd rfl hs
  | cons c s =>
    rw [readHeaderLoop]
    · rw [readLine_of_first h]; dsimp only; rw [hl]; dsimp only; rw [hv]
    · simp

theorem header_skip {s l r : Bytes} (h : FirstLine s l r) (hs : s ≠ []) (f : Nat)
    (hl : ∀ a b, headerDigits l = some (a, b) → headerVersion a b = none) :
    readHeaderLoop (f + 1) s = readHeaderLoop f r := by
  cases s with
  | nil => exact absurd rfl hs
  | cons c s =>
    rw [readHeaderLoop]
    · rw [readLine_of_first h]; dsimp only
      cases hd : headerDigits l with
      | none => rfl
      | some p => obtain ⟨a, b⟩ := p; dsimp only; rw [hl a b hd]
    · simp

/-- **C23**, leading lines: a header line is found behind any lines that do not start with `%PDF-`, whatever follows the
version in the line and whatever follows the line. -/
theorem C23_header_found (v : PdfVersion) (junk : List Bytes) (tail rest : Bytes)
    (hj : ∀ l ∈ junk, (∀ c ∈ l, c ≠ 13 ∧ c ≠ 10) ∧ ¬ b! "%PDF-" <+: l) (ht : ∀ c ∈ tail, c ≠ 13 ∧ c ≠ 10) :
    readHeader (junk.flatMap (· ++ b! "\n") ++ (b! "%PDF-" ++ versionDigits v ++ tail ++ b! "\n" ++ rest)) = .ok (v, rest) := by
  have main : ∀ (junk : List Bytes), (∀ l ∈ junk, (∀ c ∈ l, c ≠ 13 ∧ c ≠ 10) ∧ ¬ b! "%PDF-" <+: l) → ∀ f, junk.length < f →
      readHeaderLoop f (junk.flatMap (· ++ b! "\n") ++ (b! "%PDF-" ++ versionDigits v ++ tail ++ b! "\n" ++ rest)) = .ok (v, rest) := by
    intro junk
    induction junk with
    | nil =>
      intro _ f hf
      obtain ⟨f, rfl⟩ : ∃ k, f = k + 1 := ⟨f - 1, by simp at hf; omega⟩
      have hfl : FirstLine (b! "%PDF-" ++ versionDigits v ++ tail ++ b! "\n" ++ rest) (b! "%PDF-" ++ versionDigits v ++ tail) rest := by
        refine ⟨?_, Or.inr (Or.inl rfl)⟩
        intro c hc
        have hv : ∀ c ∈ b! "%PDF-" ++ versionDigits v, c ≠ 13 ∧ c ≠ 10 := by cases v <;> decide
        rcases List.mem_append.mp hc with hc | hc
        · exact hv c hc
        · exact ht c hc
      show readHeaderLoop (f + 1) (b! "%PDF-" ++ versionDigits v ++ tail ++ b! "\n" ++ rest) = _
      cases v
      · exact header_line_read hfl (by simp) f 0x31 0x30 rfl _ rfl
      · exact header_line_read hfl (by simp) f 0x31 0x31 rfl _ rfl
      · exact header_line_read hfl (by simp) f 0x31 0x32 rfl _ rfl
      · exact header_line_read hfl (by simp) f 0x31 0x33 rfl _ rfl
      · exact header_line_read hfl (by simp) f 0x31 0x34 rfl _ rfl
      · exact header_line_read hfl (by simp) f 0x31 0x35 rfl _ rfl
      · exact header_line_read hfl (by simp) f 0x31 0x36 rfl _ rfl
      · exact header_line_read hfl (by simp) f 0x31 0x37 rfl _ rfl
      · exact header_line_read hfl (by simp) f 0x32 0x30 rfl _ rfl
    | cons l junk ih =>
      intro hj f hf
      obtain ⟨f, rfl⟩ : ∃ k, f = k + 1 := ⟨f - 1, by simp at hf; omega⟩
      obtain ⟨h1, h2⟩ := hj l (by simp)
      simp only [List.length_cons] at hf
      have := ih (fun x hx => hj x (by simp [hx])) f (by omega)
      rw [List.flatMap_cons, List.append_assoc]
      rw [header_skip (l := l) (r := junk.flatMap (· ++ b! "\n") ++ (b! "%PDF-" ++ versionDigits v ++ tail ++ b! "\n" ++ rest))
        ⟨h1, Or.inr (Or.inl rfl)⟩ (by simp) f ?_]
      · exact this
      · intro a b hd
        exfalso; apply h2
        unfold headerDigits at hd
        split at hd
        · rename_i x y r; exact ⟨x :: 46 :: y :: r, by simp⟩
        · cases hd
  refine main junk hj _ ?_
  have : junk.length ≤ (junk.flatMap (· ++ b! "\n")).length := by
    clear hj main
    induction junk with
    | nil => simp
    | cons l junk ih => simp only [List.flatMap_cons, List.length_append, List.length_cons, List.length_nil] at *; omega
  simp only [List.length_append] at *; omega

/-- **C23.** The header written for a version is read back as the same version, whatever follows. -/
theorem C23_roundtrip (v : PdfVersion) (rest : Bytes) :
    readHeader (writeHeader v ++ rest) = .ok (v, [0x25, 0xDE, 0xAD, 0xC0, 0xDE, 0x0A] ++ rest) := by
  have := C23_header_found v [] [] ([0x25, 0xDE, 0xAD, 0xC0, 0xDE, 0x0A] ++ rest) (by simp) (by simp)
  have e : writeHeader v ++ rest = [].flatMap (· ++ b! "\n") ++ (b! "%PDF-" ++ versionDigits v ++ [] ++ b! "\n" ++
    ([0x25, 0xDE, 0xAD, 0xC0, 0xDE, 0x0A] ++ rest)) := by cases v <;> rfl
  rw [e]; exact this

example : ∀ l ∈ [b! "", b! "junk %PDF-1.3"], (∀ c ∈ l, c ≠ 13 ∧ c ≠ 10) ∧ ¬ b! "%PDF-" <+: l := by decide

/-- **C23**, unsupported versions: 1.8, 1.9, and 2.1 to 2.9 are rejected as not supported, whatever follows. -/
theorem C23_unsupported (a b : Byte) (tail rest : Bytes) (ht : ∀ c ∈ tail, c ≠ 13 ∧ c ≠ 10)
    (h : (a = 0x31 ∧ (b = 0x38 ∨ b = 0x39)) ∨ (a = 0x32 ∧ 0x31 ≤ b ∧ b ≤ 0x39)) :
    readHeader (b! "%PDF-" ++ [a, 0x2E, b] ++ tail ++ b! "\n" ++ rest) = .error .notSupported := by
  have fact : ∀ b : UInt8, 0x31 ≤ b ∧ b ≤ 0x39 → isNumeric b = true ∧ b ≠ 13 ∧ b ≠ 10 ∧ b ≠ 0x30 := by
    apply forall_byte; decide +kernel
  have hab : isNumeric a = true ∧ isNumeric b = true ∧ a ≠ 13 ∧ a ≠ 10 ∧ b ≠ 13 ∧ b ≠ 10 ∧
      headerVersion a b = some (.error .notSupported) := by
    rcases h with ⟨rfl, rfl | rfl⟩ | ⟨rfl, hb⟩
    · decide
    · decide
    · obtain ⟨h1, h2, h3, h4⟩ := fact b hb
      exact ⟨by decide, h1, by decide, by decide, h2, h3, by simp [headerVersion, h4]⟩
  obtain ⟨n1, n2, a1, a2, b1, b2, hv⟩ := hab
  have hfl : FirstLine (b! "%PDF-" ++ [a, 0x2E, b] ++ tail ++ b! "\n" ++ rest) (b! "%PDF-" ++ [a, 0x2E, b] ++ tail) rest := by
    refine ⟨?_, Or.inr (Or.inl rfl)⟩
    intro c hc
    rcases List.mem_append.mp hc with hc | hc
    · simp only [List.cons_append, List.nil_append, List.mem_cons, List.not_mem_nil, or_false] at hc
      rcases hc with rfl | rfl | rfl | rfl | rfl | rfl | rfl | rfl <;> first | decide | exact ⟨a1, a2⟩ | exact ⟨b1, b2⟩
    · exact ht c hc
  have := header_line_read hfl (by simp) (b! "%PDF-" ++ [a, 0x2E, b] ++ tail ++ b! "\n" ++ rest).length a b
    (by simp [headerDigits, n1, n2]) _ hv
  exact this

/-- **C23** fails for other major versions: the line is passed over, and the document is opened with the version of a
later line that looks like a header. -/
theorem C23_major_counterexample (a b : Byte) (v : PdfVersion) (tail mid tail' rest : Bytes)
    (ha : a = 0x30 ∨ (0x33 ≤ a ∧ a ≤ 0x39)) (hb : 0x30 ≤ b ∧ b ≤ 0x39) (ht : ∀ c ∈ tail, c ≠ 13 ∧ c ≠ 10)
    (hm : ∀ c ∈ mid, c ≠ 13 ∧ c ≠ 10) (hm' : ¬ b! "%PDF-" <+: mid) (ht' : ∀ c ∈ tail', c ≠ 13 ∧ c ≠ 10) :
    readHeader (b! "%PDF-" ++ [a, 0x2E, b] ++ tail ++ b! "\n" ++ (mid ++ b! "\n" ++
      (b! "%PDF-" ++ versionDigits v ++ tail' ++ b! "\n" ++ rest))) = .ok (v, rest) := by
  have fact : ∀ b : UInt8, 0x30 ≤ b ∧ b ≤ 0x39 → isNumeric b = true ∧ b ≠ 13 ∧ b ≠ 10 := by
    apply forall_byte; decide +kernel
  have facta : ∀ a : UInt8, a = 0x30 ∨ (0x33 ≤ a ∧ a ≤ 0x39) → a ≠ 13 ∧ a ≠ 10 ∧ a ≠ 0x31 ∧ a ≠ 0x32 := by
    apply forall_byte; decide +kernel
  obtain ⟨a1, a2, a3, a4⟩ := facta a ha
  obtain ⟨b0, b1, b2⟩ := fact b hb
  have hfl : FirstLine (b! "%PDF-" ++ [a, 0x2E, b] ++ tail ++ b! "\n" ++ (mid ++ b! "\n" ++
      (b! "%PDF-" ++ versionDigits v ++ tail' ++ b! "\n" ++ rest))) (b! "%PDF-" ++ [a, 0x2E, b] ++ tail) (mid ++ b! "\n" ++
      (b! "%PDF-" ++ versionDigits v ++ tail' ++ b! "\n" ++ rest)) := by
    refine ⟨?_, Or.inr (Or.inl rfl)⟩
    intro c hc
    rcases List.mem_append.mp hc with hc | hc
    · simp only [List.cons_append, List.nil_append, List.mem_cons, List.not_mem_nil, or_false] at hc
      rcases hc with rfl | rfl | rfl | rfl | rfl | rfl | rfl | rfl <;> first | decide | exact ⟨a1, a2⟩ | exact ⟨b1, b2⟩
    · exact ht c hc
  have hskip : ∀ x y, headerDigits (b! "%PDF-" ++ [a, 0x2E, b] ++ tail) = some (x, y) → headerVersion x y = none := by
    intro x y h
    simp only [headerDigits, List.cons_append, List.nil_append] at h
    split at h
    · injection h with h; injection h with h1 h2; subst h1; simp [headerVersion, a3, a4]
    · cases h
  unfold readHeader
  rw [header_skip hfl (by simp) _ hskip]
  have := C23_header_found v [mid] tail' rest (by simpa using ⟨hm, hm'⟩) ht'
  unfold readHeader at this
  -- more fuel does not change the result
  have mono : ∀ f s x, readHeaderLoop f s = .ok x → ∀ g, f ≤ g → readHeaderLoop g s = .ok x := by
    intro f
    induction f with
    | zero => intro s x h; cases h
    | succ f ih =>
      intro s x h g hg
      obtain ⟨g, rfl⟩ : ∃ k, g = k + 1 := ⟨g - 1, by omega⟩
      cases s with
      | nil => cases h
      | cons c s =>
        rw [readHeaderLoop.eq_def] at h ⊢
        dsimp only at h ⊢
        revert h
        cases readLine (c :: s) with
        | mk l r =>
          dsimp only
          cases headerDigits l with
          | none => exact fun h => ih r x h g (by omega)
          | some p =>
            obtain ⟨a, b⟩ := p; dsimp only
            cases headerVersion a b with
            | none => exact fun h => ih r x h g (by omega)
            | some v => exact id
  refine mono _ _ _ (by simpa using this) _ ?_
  simp only [List.length_append, List.length_cons, List.length_nil]; omega

/-! ### C22 -/

/-- **C22**, any ending: a file whose last `startxref`, integer and `%%EOF`, separated by white-space, lie within the last
16384 bytes, with nothing but white-space behind, has that offset; the contents in front may be anything that does not
run into the keyword. -/
theorem C22_any_ending (pre w1 t w2 w3 : Bytes) (off : Int) (hp : EndsWhite pre) (h1 : AllWhite w1) (h2 : AllWhite w2)
    (h3 : AllWhite w3) (hne : w2 ≠ []) (ht : IntText off t) (hlo : -9223372036854775808 ≤ off)
    (hhi : off ≤ 9223372036854775807) (hlen : (b! "startxref" ++ w1 ++ t ++ w2 ++ b! "%%EOF" ++ w3).length ≤ 16384) :
    lastXrefOffset (pre ++ (b! "startxref" ++ w1 ++ t ++ w2 ++ b! "%%EOF" ++ w3)) = .ok off := by
  have white : ∀ {w : Bytes}, AllWhite w → ∀ b ∈ w.reverse, isWhiteSpace b = true :=
    fun h b hb => (white_mem b).mp (h b (by simpa using hb))
  -- the part that is searched
  obtain ⟨pre', hpre', hdrop⟩ : ∃ pre', EndsWhite pre' ∧
      (pre ++ (b! "startxref" ++ w1 ++ t ++ w2 ++ b! "%%EOF" ++ w3)).drop
        ((pre ++ (b! "startxref" ++ w1 ++ t ++ w2 ++ b! "%%EOF" ++ w3)).length -
        (if (pre ++ (b! "startxref" ++ w1 ++ t ++ w2 ++ b! "%%EOF" ++ w3)).length < 16384 then
          (pre ++ (b! "startxref" ++ w1 ++ t ++ w2 ++ b! "%%EOF" ++ w3)).length else 16384)) =
        pre' ++ (b! "startxref" ++ w1 ++ t ++ w2 ++ b! "%%EOF" ++ w3) := by
    generalize hy : b! "startxref" ++ w1 ++ t ++ w2 ++ b! "%%EOF" ++ w3 = y at *
    generalize hk : ((pre ++ y).length - if (pre ++ y).length < 16384 then (pre ++ y).length else 16384) = k
    have hkl : k ≤ pre.length := by
      rw [← hk, List.length_append]; split <;> omega
    refine ⟨pre.drop k, ?_, by rw [List.drop_append_of_le_length hkl]⟩
    intro c hc
    by_cases he : pre.drop k = []
    · rw [he] at hc; simp at hc
    · have hlt : k < pre.length := by
        by_contra hcon; exact he (List.drop_eq_nil_of_le (by omega))
      rw [List.getLast?_drop, if_neg (by omega)] at hc
      exact hp c hc
  unfold lastXrefOffset
  dsimp only
  rw [hdrop]
  have hrev : (pre' ++ (b! "startxref" ++ w1 ++ t ++ w2 ++ b! "%%EOF" ++ w3)).reverse =
      w3.reverse ++ (0x46 :: (b! "OE%%" ++ (w2.reverse ++ (t.reverse ++ (w1.reverse ++ (0x66 :: (b! "erxtrats" ++ pre'.reverse))))))) := by
    simp
  rw [hrev]
  have hw2 : ∀ b ∈ (w2.reverse ++ (t.reverse ++ (w1.reverse ++ (0x66 :: (b! "erxtrats" ++ pre'.reverse))))).head?, isWhiteSpace b = true := by
    intro b hb
    cases hr : w2.reverse with
    | nil => exact absurd (by simpa using hr) hne
    | cons x xs =>
      rw [hr] at hb; simp at hb
      exact white h2 b (by rw [hr, hb]; simp)
  have k1 := revToken_word 0x46 (b! "OE%%") _ (by decide) (by decide) (by decide) hw2
  have hi : ∀ b ∈ (w1.reverse ++ (0x66 :: (b! "erxtrats" ++ pre'.reverse))).head?, isNumeric b = false ∧ (b == 0x2B || b == 0x2D) = false := by
    have wn : ∀ b : UInt8, isWhiteSpace b = true → isNumeric b = false ∧ (b == 0x2B || b == 0x2D) = false := by
      apply forall_byte; decide +kernel
    intro b hb
    cases hr : w1.reverse with
    | nil => rw [hr] at hb; simp at hb; subst hb; decide
    | cons x xs =>
      rw [hr] at hb; simp at hb
      exact wn b (white h1 b (by rw [hr, hb]; simp))
  have k2 := revToken_int ht _ hi
  have hpr : ∀ b ∈ pre'.reverse.head?, isWhiteSpace b = true := by
    intro b hb
    rw [List.head?_reverse] at hb
    exact (white_mem b).mp (hpre' b hb)
  have k3 := revToken_word 0x66 (b! "erxtrats") pre'.reverse (by decide) (by decide) (by decide) hpr
  have nt : ∀ b ∈ (t.reverse ++ (w1.reverse ++ (0x66 :: (b! "erxtrats" ++ pre'.reverse)))).head?, isWhiteSpace b = false := by
    intro b hb
    have hn : t ≠ [] ∧ ∀ c ∈ t.getLast?, isWhiteSpace c = false := by
      obtain ⟨ds, hne, hd, h⟩ := ht
      have key : ∀ c ∈ ds.getLast?, isWhiteSpace c = false := by
        intro c hc
        exact (revDigit_facts c (hd c (List.mem_of_getLast? hc))).2.1
      rcases h with ⟨rfl, _⟩ | ⟨rfl, _⟩ | ⟨rfl, _⟩
      · exact ⟨hne, key⟩
      · refine ⟨by simp, fun c hc => key c ?_⟩
        cases ds with
        | nil => exact absurd rfl hne
        | cons x xs => simpa [List.getLast?_cons_cons] using hc
      · refine ⟨by simp, fun c hc => key c ?_⟩
        cases ds with
        | nil => exact absurd rfl hne
        | cons x xs => simpa [List.getLast?_cons_cons] using hc
    cases hr : t.reverse with
    | nil => exact absurd (by simpa using hr) hn.1
    | cons x xs =>
      rw [hr] at hb; simp at hb
      refine hn.2 b ?_
      have : t = (x :: xs).reverse := by rw [← hr, List.reverse_reverse]
      rw [this]; simp [hb]
  unfold revOffset
  rw [revExpect_skip .eofMarker _ (by simp; decide) (by decide) _ w3.reverse (Nat.le_refl _) (white h3) _
    (by simp only [List.length_append]; omega)]
  rw [k1]; dsimp only
  rw [if_pos (by decide), ok_bind]; dsimp only
  rw [revExpect_skip .integer _ nt (by decide) _ w2.reverse (Nat.le_refl _) (white h2) _
    (by simp only [List.length_append]; omega)]
  rw [k2]; dsimp only
  rw [if_pos rfl, ok_bind]; dsimp only
  rw [revExpect_skip .startXref _ (by simp; decide) (by decide) _ w1.reverse (Nat.le_refl _) (white h1) _
    (by simp only [List.length_append]; omega)]
  rw [k3]; dsimp only
  rw [if_pos (by decide), ok_bind]
  rw [List.reverse_reverse]
  exact stoll_text ht hlo hhi

example : EndsWhite (b! "anything\n") ∧ AllWhite (b! " \t\r\n") ∧ IntText (-7) (b! "-07") :=
  ⟨by unfold EndsWhite; decide, by decide, ⟨b! "07", by simp, by unfold IsDigit; decide, Or.inr (Or.inr ⟨rfl, by decide⟩)⟩⟩

/-- **C22.** In a file that ends with the text written for an offset, behind any contents that end with white-space (the
writer ends every object and trailer with a line feed), the offset is found. -/
theorem C22_roundtrip (pre : Bytes) (off : Int) (hp : EndsWhite pre) (hlo : -9223372036854775808 ≤ off)
    (hhi : off ≤ 9223372036854775807) : lastXrefOffset (pre ++ writeXrefOffset off) = .ok off := by
  have hl : (intDec off).length ≤ 20 := by
    have hn : (natDec off.natAbs).length ≤ 19 := by
      have := natDecAux_length (off.natAbs + 1) off.natAbs 18 [] (by omega)
      simpa [natDec] using this
    unfold intDec
    split
    · simp only [List.length_cons]; omega
    · omega
  have := C22_any_ending pre (b! "\n") (intDec off) (b! "\n") (b! "\n") off hp (by decide) (by decide) (by decide) (by simp)
    (intDec_text off) hlo hhi (by simp only [List.length_append, List.length_cons, List.length_nil]; omega)
  rw [show writeXrefOffset off = b! "startxref" ++ b! "\n" ++ intDec off ++ b! "\n" ++ b! "%%EOF" ++ b! "\n" by simp [writeXrefOffset]]
  exact this

/-- **C22** is limited to the last 16384 bytes: with that much white-space behind `%%EOF` the offset is not found. -/
theorem C22_far_counterexample (pre w : Bytes) (hw : AllWhite w) (hl : 16384 ≤ w.length) :
    lastXrefOffset (pre ++ w) = .error .throw := by
  unfold lastXrefOffset
  dsimp only
  rw [if_neg (by simp; omega)]
  have : (pre ++ w).drop ((pre ++ w).length - 16384) = w.drop (w.length - 16384) := by
    rw [List.length_append, show pre.length + w.length - 16384 = pre.length + (w.length - 16384) by omega, List.drop_append]
    simp
  rw [this]
  unfold revOffset
  have hall : ∀ b ∈ (w.drop (w.length - 16384)).reverse, isWhiteSpace b = true := by
    intro b hb
    exact (white_mem b).mp (hw b (List.mem_of_mem_drop (by simpa using hb)))
  have := revExpect_skip .eofMarker [] (by simp) (by decide) _ _ (Nat.le_refl _) hall
    ((w.drop (w.length - 16384)).reverse.length + 1) (by omega)
  rw [List.append_nil] at this
  rw [this]; rfl

/-! ### C24 -/

/-- How the model's way to read a section is seen by the specification. -/
def SectionAt (e : Env) (sec : Int → Res ReadSection) (o : Int) (x : ReadSection) (p : Option Int) : Prop :=
  sec o = .ok x ∧ prevOffset e x.2 = .ok p

/-- **C24**, partial: when following the previous offsets ends, so does the loop, and it returns the sections newest
first.  Missing: chains with a cycle, see `C24_cycle_counterexample`. -/
theorem C24_finite_chain_partial (e : Env) (sec : Int → Res ReadSection) (o : Int) (xs : List ReadSection)
    (h : Sections (SectionAt e sec) o xs) (f : Nat) (hf : xs.length ≤ f) : readChain e sec f o = .ok xs := by
  induction h generalizing f with
  | last o x h =>
    obtain ⟨f, rfl⟩ : ∃ k, f = k + 1 := ⟨f - 1, by simp at hf; omega⟩
    rw [readChain, h.1, ok_bind, h.2, ok_bind]; rfl
  | more o p x xs h _ ih =>
    obtain ⟨f, rfl⟩ : ∃ k, f = k + 1 := ⟨f - 1, by simp at hf; omega⟩
    rw [readChain, h.1, ok_bind, h.2, ok_bind]; dsimp only
    rw [ih f (by simp at hf; omega)]; rfl

/-- A file with two tables, the second one with a link to the first. -/
def twoTables : Bytes := b! "xref\n0 1\n0000000000 65535 f \ntrailer\n<<>>\nxref\n1 1\n0000000007 00000 n \ntrailer\n<</Prev 0>>\nstartxref\n42\n%%EOF\n"

example (stream : Bytes → Res ReadSection) :
    Sections (SectionAt ⟨twoTables, true, fun _ _ => .error .missing⟩
      (readSection ⟨twoTables, true, fun _ _ => .error .missing⟩ stream)) 42
      [([⟨1, 0, .used 7⟩], [(b! "Prev", .int 0)]), ([⟨0, 65535, .free 0⟩], [])] :=
  .more _ 0 _ _ ⟨by rfl, by rfl⟩ (.last _ _ ⟨by rfl, by rfl⟩)

/-- **C24**, converse: whatever is returned are the sections of the chain, newest first. -/
theorem C24_sound (e : Env) (sec : Int → Res ReadSection) (f : Nat) (o : Int) (xs : List ReadSection)
    (h : readChain e sec f o = .ok xs) : Sections (SectionAt e sec) o xs := by
  induction f generalizing o xs with
  | zero => cases h
  | succ f ih =>
    rw [readChain] at h
    cases hs : sec o with
    | error x => rw [hs] at h; cases h
    | ok x =>
      rw [hs, ok_bind] at h
      cases hp : prevOffset e x.2 with
      | error y => rw [hp] at h; cases h
      | ok p =>
        rw [hp, ok_bind] at h
        cases p with
        | none => cases h; exact .last o x ⟨hs, hp⟩
        | some p =>
          dsimp only at h
          cases hc : readChain e sec f p with
          | error y => rw [hc] at h; cases h
          | ok ys => rw [hc] at h; cases h; exact .more o p x ys ⟨hs, hp⟩ (ih p ys hc)

/-- **C24**, the link: the previous section is the one at the integer `/Prev` of the dictionary; a dictionary without that
key ends the chain. -/
theorem C24_prev_entry (e : Env) (d : Dict) (hk : (d.map Prod.fst).Nodup) :
    (∀ n, (b! "Prev", Obj.int n) ∈ d → prevOffset e d = .ok (some n)) ∧
    ((∀ v, (b! "Prev", v) ∉ d) → prevOffset e d = .ok none) := by
  constructor
  · intro n hn
    have : mapFind (b! "Prev") d = some (.int n) := by
      induction d with
      | nil => cases hn
      | cons x d ih =>
        obtain ⟨k, v⟩ := x
        rw [List.map_cons, List.nodup_cons] at hk
        rw [mapFind]
        rcases List.mem_cons.mp hn with h | h
        · cases h; rw [if_pos (by decide)]
        · rw [if_neg, ih hk.2 h]
          intro hc
          exact hk.1 (List.mem_map.mpr ⟨_, h, eq_of_beq hc⟩)
    unfold prevOffset; rw [this]; rfl
  · intro hn
    have : mapFind (b! "Prev") d = none := by
      clear hk
      induction d with
      | nil => rfl
      | cons x d ih =>
        obtain ⟨k, v⟩ := x
        rw [mapFind, if_neg, ih (fun v hv => hn v (List.mem_cons_of_mem _ hv))]
        intro hc
        have := eq_of_beq hc; subst this
        exact hn v (List.mem_cons_self ..)
    unfold prevOffset; rw [this]

example : prevOffset ⟨[], true, fun _ _ => .error .missing⟩ [(b! "Prev", .int 7), (b! "Size", .int 2)] = .ok (some 7) :=
  (C24_prev_entry _ _ (by decide)).1 7 (List.mem_cons_self ..)

/-- **C24**, files without forward links: when every section of the file has a previous offset that is smaller than its
own and not negative, the loop ends, with the sections or an error of reading a section. -/
theorem C24_decreasing_partial (e : Env) (sec : Int → Res ReadSection)
    (hdec : ∀ o x p, SectionAt e sec o x (some p) → 0 ≤ p ∧ p < o)
    (hs : ∀ o, sec o ≠ .error .timeout) (hp : ∀ x, prevOffset e x ≠ .error .timeout) (o : Int) :
    ∃ f r, r ≠ .error .timeout ∧ ∀ g, f ≤ g → readChain e sec g o = r := by
  have main : ∀ (n : Nat) (o : Int), o.toNat < n → ∃ f r, r ≠ .error .timeout ∧ ∀ g, f ≤ g → readChain e sec g o = r := by
    intro n
    induction n with
    | zero => intro o ho; omega
    | succ n ih =>
      intro o ho
      cases hso : sec o with
      | error x =>
        refine ⟨1, .error x, fun hc => hs o (by rw [hso]; simpa using hc), fun g hg => ?_⟩
        obtain ⟨g, rfl⟩ : ∃ k, g = k + 1 := ⟨g - 1, by omega⟩
        rw [readChain, hso]; rfl
      | ok x =>
        cases hpx : prevOffset e x.2 with
        | error y =>
          refine ⟨1, .error y, fun hc => hp x.2 (by rw [hpx]; simpa using hc), fun g hg => ?_⟩
          obtain ⟨g, rfl⟩ : ∃ k, g = k + 1 := ⟨g - 1, by omega⟩
          rw [readChain, hso, ok_bind, hpx]; rfl
        | ok p =>
          cases p with
          | none =>
            refine ⟨1, .ok [x], by simp, fun g hg => ?_⟩
            obtain ⟨g, rfl⟩ : ∃ k, g = k + 1 := ⟨g - 1, by omega⟩
            rw [readChain, hso, ok_bind, hpx, ok_bind]; rfl
          | some p =>
            have := hdec o x p ⟨hso, hpx⟩
            obtain ⟨f, r, hr, hf⟩ := ih p (by omega)
            refine ⟨f + 1, r.map (x :: ·), ?_, fun g hg => ?_⟩
            · cases r with
              | error y => intro hc; apply hr; simpa [Except.map] using hc
              | ok y => simp [Except.map]
            · obtain ⟨g, rfl⟩ : ∃ k, g = k + 1 := ⟨g - 1, by omega⟩
              rw [readChain, hso, ok_bind, hpx, ok_bind]; dsimp only
              rw [hf g (by omega)]
              cases r <;> rfl
  exact main (o.toNat + 1) o (by omega)

/-- Sections at the offsets 100 and 50, reading fails elsewhere. -/
example : let sec : Int → Res ReadSection := fun o => if o = 100 then .ok ([], [(b! "Prev", .int 50)]) else
      if o = 50 then .ok ([], []) else .error .throw
    let e : Env := ⟨[], true, fun _ _ => .error .missing⟩
    (∀ o x p, SectionAt e sec o x (some p) → 0 ≤ p ∧ p < o) ∧ (∀ o, sec o ≠ .error .timeout) := by
  refine ⟨?_, ?_⟩
  · rintro o x p ⟨h1, h2⟩
    dsimp only at h1
    split at h1
    · injection h1 with h1; subst h1
      have : prevOffset ⟨[], true, fun _ _ => .error .missing⟩ [(b! "Prev", .int 50)] = .ok (some 50) := rfl
      rw [this] at h2; injection h2 with h2; injection h2 with h2; omega
    · split at h1
      · injection h1 with h1; subst h1; cases h2
      · cases h1
  · intro o; dsimp only; split
    · simp
    · split <;> simp

/-- **C24** fails for every chain with a cycle, of any length and reached in any number of steps: the loop never ends, no
number of steps suffices. -/
theorem C24_cycle_counterexample (e : Env) (sec : Int → Res ReadSection) (o c : Int)
    (h : o = c ∨ LeadsTo (SectionAt e sec) o c) (hc : LeadsTo (SectionAt e sec) c c) (f : Nat) :
    readChain e sec f o = .error .timeout := by
  induction f generalizing o with
  | zero => rfl
  | succ f ih =>
    have step : ∃ x p, SectionAt e sec o x (some p) ∧ (p = c ∨ LeadsTo (SectionAt e sec) p c) := by
      have h' : LeadsTo (SectionAt e sec) o c := by
        rcases h with rfl | h
        · exact hc
        · exact h
      cases h' with
      | one _ _ x h => exact ⟨x, c, h, Or.inl rfl⟩
      | step _ p _ x h h2 => exact ⟨x, p, h, Or.inr h2⟩
    obtain ⟨x, p, hs, hp⟩ := step
    rw [readChain, hs.1, ok_bind, hs.2, ok_bind]; dsimp only
    rw [ih p hp]; rfl

/-- A file with a table at offset 9 whose trailer says that the previous table is at offset 9. -/
def loopFile : Bytes := b! "%PDF-1.4\nxref\n0 1\n0000000000 65535 f \ntrailer\n<</Prev 9>>\nstartxref\n9\n%%EOF\n"

/-- Opening this file does not end. -/
theorem C24_file_counterexample (stream : Bytes → Res ReadSection) (f : Nat) :
    lastXrefOffset loopFile = .ok 9 ∧
    readChain ⟨loopFile, true, fun _ _ => .error .missing⟩
      (readSection ⟨loopFile, true, fun _ _ => .error .missing⟩ stream) f 9 = .error .timeout := by
  refine ⟨by decide +kernel, ?_⟩
  have h : SectionAt ⟨loopFile, true, fun _ _ => .error .missing⟩
      (readSection ⟨loopFile, true, fun _ _ => .error .missing⟩ stream) 9
      ([⟨0, 65535, .free 0⟩], [(b! "Prev", .int 9)]) (some 9) := ⟨by rfl, by rfl⟩
  exact C24_cycle_counterexample _ _ 9 9 (Or.inl rfl) (.one _ _ _ h) f

end VPdf
