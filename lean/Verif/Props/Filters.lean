import Verif.Lemmas.Predictor
/-
  C09 ASCIIHexDecode, C10 ASCII85Decode, C11 PNG predictors, C12 filter chains.
-/
namespace VPdf

/-- **C09**.  Full statement: decoding hexadecimal text with white-space anywhere, ended by `>` (anything may follow)
or by the end of the data, returns the bytes ISO 32000 says it denotes.  Missing: an odd number of digits, see
`C09_odd_counterexample`. -/
theorem C09_hexadecimal_text_partial (s v rest : Bytes) (h : Spec.hexBytes (Spec.strip s) = some v)
    (heven : (Spec.strip s).length % 2 = 0) :
    asciiHexDecode none (s ++ 0x3E :: rest) = .ok v ∧ asciiHexDecode none s = .ok v := by
  have h1 := asciiHexDecode_text (0x3E :: rest) (Or.inr ⟨rest, rfl⟩) s none (Spec.strip s) [] v (by simp) heven (by simp) h (by simp)
  have h2 := asciiHexDecode_text [] (Or.inl rfl) s none (Spec.strip s) [] v (by simp) heven (by simp) h (by simp)
  simp only [lastByte, List.append_nil] at h1 h2
  exact ⟨h1, h2⟩

/-- In particular the two-digit text of any data, upper or lower case, broken by white-space anywhere. -/
theorem C09_inverts_encoding (d s rest : Bytes) (h : Spec.strip s = d.flatMap hex2) :
    asciiHexDecode none (s ++ 0x3E :: rest) = .ok d := by
  have hb : ∀ d : Bytes, Spec.hexBytes (d.flatMap hex2) = some d ∧ (d.flatMap hex2).length % 2 = 0 := by
    intro d
    induction d with
    | nil => exact ⟨rfl, rfl⟩
    | cons c d ih =>
      have hc : ∀ c : Byte, Spec.hexVal (hexDigit (c.toNat / 16)) = some (c.toNat / 16) ∧
          Spec.hexVal (hexDigit (c.toNat % 16)) = some (c.toNat % 16) := by apply forall_byte; decide +kernel
      simp only [List.flatMap_cons, hex2, List.cons_append, List.nil_append]
      refine ⟨?_, by simp only [List.length_cons]; omega⟩
      unfold Spec.hexBytes
      rw [(hc c).1, (hc c).2, ih.1]
      show some (UInt8.ofNat (16 * (c.toNat / 16) + c.toNat % 16) :: d) = _
      rw [Nat.div_add_mod, UInt8.ofNat_toNat]
  obtain ⟨h1, h2⟩ := hb d
  exact (C09_hexadecimal_text_partial s d rest (by rw [h]; exact h1) (by rw [h]; exact h2)).1

example : asciiHexDecode none (b! "4 1\n42 > tail") = .ok (b! "AB") :=
  C09_inverts_encoding (b! "AB") (b! "4 1\n42 ") (b! " tail") (by decide)

/-- **C09** is false for every text with an odd number of digits whose last digit is not 0: the last digit is taken
as the low digit of the last byte, not the high one. -/
theorem C09_odd_counterexample (s ds init rest : Bytes) (x : Byte) (a : Nat) (hs : Spec.strip s = ds ++ [x])
    (heven : ds.length % 2 = 0) (hds : Spec.hexBytes ds = some init) (hx : Spec.hexVal x = some a) (ha : a ≠ 0) :
    Spec.hexBytes (Spec.strip s) = some (init ++ [UInt8.ofNat (16 * a)]) ∧
    asciiHexDecode none (s ++ 0x3E :: rest) = .ok (init ++ [UInt8.ofNat a]) ∧
    UInt8.ofNat a ≠ UInt8.ofNat (16 * a) := by
  refine ⟨?_, ?_, ?_⟩
  · rw [hs]
    clear hs
    induction ds using Spec.hexBytes.induct generalizing init with
    | case1 =>
      cases hds
      simp only [List.nil_append]
      unfold Spec.hexBytes
      rw [hx]; rfl
    | case2 y => simp at heven
    | case3 y y' ds ih =>
      unfold Spec.hexBytes at hds
      cases h : Spec.hexVal y with
      | none => rw [h] at hds; simp at hds
      | some p =>
        cases h' : Spec.hexVal y' with
        | none => rw [h, h'] at hds; simp at hds
        | some q =>
          cases h'' : Spec.hexBytes ds with
          | none => rw [h, h', h''] at hds; simp at hds
          | some r =>
            rw [h, h', h''] at hds
            have hds' : some (UInt8.ofNat (16 * p + q) :: r) = some init := hds
            cases hds'
            simp only [List.cons_append]
            unfold Spec.hexBytes
            rw [h, h', ih r (by simp at heven; omega) h'']
            rfl
  · have := asciiHexDecode_text (0x3E :: rest) (Or.inr ⟨rest, rfl⟩) s none ds [x] init (by simpa using hs) heven (by simp) hds
      (by simp [hx])
    simpa [lastByte, hx] using this
  · have hlt := (hexVal_facts x a hx).2.1
    intro hc
    have := congrArg UInt8.toNat hc
    simp at this
    omega

example : asciiHexDecode none (b! "41 A>") = .ok [0x41, 0x0A] ∧ Spec.hexBytes (b! "41A") = some [0x41, 0xA0] := by
  decide +kernel

/-- **C10**.  Full statement: decoding the base-85 text of any data, with white-space anywhere and `~>` (and anything
behind it) or the end of the data at the end, returns the data without arithmetic overflow.  Proved when the first
byte of every four is below 0x80.  Missing: the other data, where the `int` arithmetic overflows
(`C10_overflow_counterexample`). -/
theorem C10_decodes_base85_partial (m : Overflow) (d s rest : Bytes) (hs : Spec.strip s = Spec.base85 d)
    (hd : ∀ b ∈ Spec.groupHeads d, b.toNat < 128) :
    ascii85Decode m (s ++ 0x7E :: 0x3E :: rest) = .ok d ∧ ascii85Decode m s = .ok d := by
  have hn : NoTilde s := noTilde_of_strip (by rw [hs]; exact base85_noTilde d)
  have key : ∀ t, Ends85 t → a85Loop m [] (s ++ t) = .ok d := by
    intro t ht
    rw [a85Loop_strip m t s [] hn, hs]
    exact base85_decodes m ht d (Or.inr hd)
  exact ⟨key _ (Or.inr ⟨rest, rfl⟩), by have := key [] (Or.inl rfl); rwa [List.append_nil] at this⟩

/-- **C10** for all data, on platforms where signed overflow wraps. -/
theorem C10_decodes_base85_wrapping (d s rest : Bytes) (hs : Spec.strip s = Spec.base85 d) :
    ascii85Decode .wrap (s ++ 0x7E :: 0x3E :: rest) = .ok d ∧ ascii85Decode .wrap s = .ok d := by
  have hn : NoTilde s := noTilde_of_strip (by rw [hs]; exact base85_noTilde d)
  have key : ∀ t, Ends85 t → a85Loop .wrap [] (s ++ t) = .ok d := by
    intro t ht
    rw [a85Loop_strip .wrap t s [] hn, hs]
    exact base85_decodes .wrap ht d (Or.inl rfl)
  exact ⟨key _ (Or.inr ⟨rest, rfl⟩), by have := key [] (Or.inl rfl); rwa [List.append_nil] at this⟩

example : Spec.base85 (b! "sure.") = b! "F*2M7/c" ∧ ascii85Decode .strict (b! "F*2 M7\n/c~>x") = .ok (b! "sure.") ∧
    Spec.base85 [0, 0, 0, 0, 200, 1] = b! "za8l" ∧ ascii85Decode .wrap (b! "za8l~>") = .ok [0, 0, 0, 0, 200, 1] := by
  decide +kernel

/-- **C10** is false by the C++ standard for all data in which the first byte of some group of four is 0x80 or more:
decoding its base-85 text overflows an `int`. -/
theorem C10_overflow_counterexample (d s rest : Bytes) (hs : Spec.strip s = Spec.base85 d)
    (hd : ∃ b ∈ Spec.groupHeads d, 128 ≤ b.toNat) :
    ascii85Decode .strict (s ++ 0x7E :: 0x3E :: rest) = .error .ub := by
  have hn : NoTilde s := noTilde_of_strip (by rw [hs]; exact base85_noTilde d)
  unfold ascii85Decode
  rw [a85Loop_strip .strict _ s [] hn, hs]
  exact base85_ub (Or.inr ⟨rest, rfl⟩) d hd

example : ascii85Decode .strict (b! "s8W-!~>") = .error .ub ∧ Spec.base85 [255, 255, 255, 255] = b! "s8W-!" := by
  decide +kernel

/-- **C11**.  Full statement: for all colours, bit depths, columns and rows, decoding the rows filtered by PNG's rules,
each with any of the five types, returns the rows.  Proved for rows of type None and Up always; of type Sub when a
pixel occupies whole bytes; of type Average and Paeth when moreover the row is one pixel wide.  Missing: the other Sub,
Average and Paeth rows, see the counterexamples below. -/
theorem C11_predictor_inverts_png_partial (colors bits columns : Nat) (predictor : Int) (rows : List (Nat × Bytes))
    (hp : 10 ≤ predictor) (hfit : colors * bits < 2 ^ 32 ∧ colors * columns * bits + 7 < 2 ^ 32 ∧ colors * columns < 2 ^ 32 ∧
      colors < 2 ^ 32 ∧ bits < 2 ^ 32 ∧ columns < 2 ^ 32)
    (hrows : ∀ r ∈ rows, r.2.length = Spec.pngBytesPerRow colors bits columns ∧
      (r.1 = 0 ∨ r.1 = 2 ∨ (8 ∣ colors * bits ∧ 0 < colors * bits ∧
        (r.1 = 1 ∨ (r.1 = 3 ∧ columns = 1) ∨ (r.1 = 4 ∧ columns = 1))))) :
    applyPredictor { predictor := predictor, colors := colors, bits := bits, columns := columns }
      (Spec.pngFilter (Spec.pngBytesPerPixel colors bits)
        (List.replicate (Spec.pngBytesPerRow colors bits columns) 0) rows) = .ok (rows.flatMap (·.2)) := by
  obtain ⟨f1, f2, f3, f4, f5, f6⟩ := hfit
  have hconv : ∀ x : Nat, x < 2 ^ 32 → safeConvert .u32 .i64 (x : Int) = .ok (x : Int) := by
    intro x hx
    refine C13_error_only_if_unfit_partial .u32 .i64 (by decide) (by decide) _ ?_ ?_ (fun h => absurd h.1 (by decide))
    · rw [fits_nonneg (by omega)]; simp [IntTy.i64]; omega
    · rw [fits_nonneg (by omega)]; simp [IntTy.u32]; omega
  have hf32 : ∀ x : Nat, x < 2 ^ 32 → Spec.Fits .u32 (x : Int) := by
    intro x hx; rw [fits_nonneg (by omega)]; simp [IntTy.u32]; omega
  have hmul : ∀ x y : Nat, x < 2 ^ 32 → y < 2 ^ 32 → x * y < 2 ^ 32 →
      safeMultiply .u32 .u32 (x : Int) (y : Int) = .ok ((x * y : Nat) : Int) := by
    intro x y hx hy hxy
    rw [C14_multiplication .u32 .u32 (by decide) (by decide) rfl rfl _ _ (hf32 x hx) (hf32 y hy)]
    have : (x : Int) * y = ((x * y : Nat) : Int) := by push_cast; rfl
    rw [this, if_pos]
    show ((x * y : Nat) : Int) < 2 ^ 32
    omega
  have hadd : safeAddition .u32 .u32 .i32 ((colors * columns * bits : Nat) : Int) 7 =
      .ok ((colors * columns * bits + 7 : Nat) : Int) := by
    have hn := hf32 (colors * columns * bits) (by omega)
    have hi : Spec.Builtin IntTy.i32 := by decide
    have hu : Spec.Builtin IntTy.u32 := by decide
    obtain ⟨k, s, h1, h2, h3, h4, h5⟩ := safeAdd_sum .u32 .u32 .i32 hu hi rfl rfl (by decide) (by decide)
      ((colors * columns * bits : Nat) : Int) 7 hn (by decide) (by decide)
    have hk : k = 32 := by have := h4 (by decide); simp [IntTy.u32] at this h5; omega
    subst hk
    rw [Int.emod_eq_of_lt (by omega) (by omega)] at h2
    have e : ((colors * columns * bits : Nat) : Int) + 7 = ((colors * columns * bits + 7 : Nat) : Int) := by push_cast; rfl
    rw [e] at h2
    unfold safeAddition
    rw [h1, bindOk]
    have hlt1 : cppLt .u32 .i32 ((colors * columns * bits : Nat) : Int) 0 = false := by
      rw [cppLt_nonneg hu hi (Int.natCast_nonneg _) (by omega) hn (by decide)]
      exact decide_eq_false (by have := Int.natCast_nonneg (colors * columns * bits); omega)
    have hlt2 : cppLt .u32 .u32 ((colors * columns * bits + 7 : Nat) : Int) ((colors * columns * bits : Nat) : Int) = false := by
      rw [cppLt_nonneg hu hu (Int.natCast_nonneg _) (Int.natCast_nonneg _) (hf32 _ f2) hn]
      exact decide_eq_false (by omega)
    dsimp only
    rw [hlt1, h2, hlt2]
    rfl
  have hrow : (((colors * columns * bits + 7 : Nat) : Int) / 8).toNat = Spec.pngBytesPerRow colors bits columns := by
    unfold Spec.pngBytesPerRow
    have : colors * columns * bits = colors * bits * columns := by ring
    rw [this]
    omega
  unfold applyPredictor
  rw [if_neg (by simp; omega), if_neg (by simp; omega), if_neg (by simp; omega)]
  rw [hconv _ f4, bindOk, hconv _ f6, bindOk, hconv _ f5, bindOk, hmul _ _ f4 f5 f1, bindOk, hmul _ _ f4 f6 f3, bindOk,
    hmul _ _ f3 f5 (by omega), bindOk, hadd, bindOk]
  dsimp only
  rw [hrow]
  by_cases hw : 8 ∣ colors * bits ∧ 0 < colors * bits
  · have hbpp : (((colors * bits : Nat) : Int) / 8).toNat = Spec.pngBytesPerPixel colors bits := by
      unfold Spec.pngBytesPerPixel; omega
    rw [hbpp]
    refine undoRows_filter _ _ rows _ ?_
    intro r hr
    obtain ⟨h1, h2⟩ := hrows r hr
    refine ⟨h1, ?_⟩
    have hpos : 0 < Spec.pngBytesPerPixel colors bits := by unfold Spec.pngBytesPerPixel; omega
    have heq : columns = 1 → Spec.pngBytesPerRow colors bits columns = Spec.pngBytesPerPixel colors bits := by
      rintro rfl; unfold Spec.pngBytesPerPixel Spec.pngBytesPerRow; rw [Nat.mul_one]; omega
    unfold RowOk
    rcases h2 with h | h | ⟨_, _, h | ⟨h, hc⟩ | ⟨h, hc⟩⟩
    · exact Or.inl h
    · exact Or.inr (Or.inl h)
    · exact Or.inr (Or.inr (Or.inl ⟨h, hpos⟩))
    · exact Or.inr (Or.inr (Or.inr ⟨Or.inl h, heq hc⟩))
    · exact Or.inr (Or.inr (Or.inr ⟨Or.inr h, heq hc⟩))
  · have hsimple : ∀ r ∈ rows, r.1 = 0 ∨ r.1 = 2 := by
      intro r hr
      rcases (hrows r hr).2 with h | h | ⟨h8, h0, _⟩
      · exact Or.inl h
      · exact Or.inr h
      · exact absurd ⟨h8, h0⟩ hw
    have hirr : ∀ b b' (rs : List (Nat × Bytes)) prior, (∀ r ∈ rs, r.1 = 0 ∨ r.1 = 2) →
        Spec.pngFilter b prior rs = Spec.pngFilter b' prior rs := by
      intro b b' rs
      induction rs with
      | nil => intro _ _; rfl
      | cons r rs ih =>
        intro prior h
        obtain ⟨ty, row⟩ := r
        unfold Spec.pngFilter
        have hrw : Spec.pngFilterRow ty b prior row = Spec.pngFilterRow ty b' prior row := by
          unfold Spec.pngFilterRow
          rcases h (ty, row) (by simp) with h | h <;> simp only at h <;> subst h <;> rfl
        rw [hrw, ih row (fun r hr => h r (by simp [hr]))]
    rw [hirr _ (((colors * bits : Nat) : Int) / 8).toNat rows _ hsimple]
    refine undoRows_filter _ _ rows _ ?_
    intro r hr
    refine ⟨(hrows r hr).1, ?_⟩
    rcases hsimple r hr with h | h
    · exact Or.inl h
    · exact Or.inr (Or.inl h)

example : Spec.pngFilter 3 [0, 0, 0, 0, 0, 0] [(1, [1, 2, 3, 5, 7, 9]), (2, [1, 1, 1, 255, 0, 0])] =
      [1, 1, 2, 3, 4, 5, 6, 2, 0, 255, 254, 250, 249, 247] ∧
    applyPredictor { predictor := 15, colors := 3, columns := 2 } [1, 1, 2, 3, 4, 5, 6, 2, 0, 255, 254, 250, 249, 247] =
      .ok [1, 2, 3, 5, 7, 9, 1, 1, 1, 255, 0, 0] := by decide +kernel

/-- **C11** is false for Average rows: two grey pixels 10, 20 filtered by PNG's rule do not decode to 10, 20. -/
theorem C11_average_counterexample :
    Spec.pngFilter 1 [0, 0] [(3, [10, 20])] = [3, 10, 15] ∧
    applyPredictor { predictor := 13, columns := 2 } (Spec.pngFilter 1 [0, 0] [(3, [10, 20])]) = .ok [15, 15] := by
  decide +kernel

/-- **C11** is false for Paeth rows. -/
theorem C11_paeth_counterexample :
    Spec.pngFilter 1 [0, 0] [(4, [10, 20])] = [4, 10, 10] ∧
    applyPredictor { predictor := 14, columns := 2 } (Spec.pngFilter 1 [0, 0] [(4, [10, 20])]) = .ok [20, 10] := by
  decide +kernel

/-- **C11** is false for Sub rows of pixels smaller than a byte: PNG takes the byte to the left, the library doubles the
byte itself.  Here eight-pixel rows of one bit. -/
theorem C11_small_pixel_counterexample :
    Spec.pngFilter (Spec.pngBytesPerPixel 1 1) [0, 0] [(1, [10, 20])] = [1, 10, 10] ∧
    applyPredictor { predictor := 11, bits := 1, columns := 16 } [1, 10, 10] = .ok [20, 20] := by decide +kernel

/-- **C11** is false for Sub rows of pixels that are not a whole number of bytes (three colours of four bits). -/
theorem C11_odd_pixel_counterexample :
    Spec.pngFilter (Spec.pngBytesPerPixel 3 4) [0, 0, 0] [(1, [10, 20, 30])] = [1, 10, 20, 20] ∧
    applyPredictor { predictor := 11, colors := 3, bits := 4, columns := 2 } [1, 10, 20, 20] = .ok [10, 30, 50] := by decide +kernel

/-- The zlib property the chain theorems rely on. -/
def Spec.Lossless (k : Codecs) : Prop := ∀ d, k.inflate (k.deflate d) = .ok d

/-- **C12**.  Full statement: for every filter entry, what is stored for a changed body decodes to that body.  Proved for
streams without filters and for any number of Flate filters without predictor.  Missing: everything else, see
`C12_order_counterexample` and `C12_predictor_counterexample`; filters without an encoder report an error
(`C12_stores_or_reports`). -/
theorem C12_encode_decode_partial (m : Overflow) (k : Codecs) (hk : Spec.Lossless k) (e : FilterEntry) (d stored : Bytes)
    (he : match e with
      | .absent => True
      | .name f p => f = .flate ∧ p.predictor = 1
      | .array fs => ∀ x ∈ fs, x.1 = .flate ∧ x.2.predictor = 1)
    (hs : encodeBody k e d = .ok stored) : decodeBody m k e stored = .ok d := by
  have happ : ∀ (p : PredictorParams) (x : Bytes), p.predictor = 1 → applyPredictor p x = .ok x := by
    intro p x hp; unfold applyPredictor; rw [if_pos hp]
  have hf : ∀ (p : PredictorParams) (x : Bytes), p.predictor = 1 → filterDecode m k .flate p (k.deflate x) = .ok x := by
    intro p x hp
    show (k.inflate (k.deflate x) >>= fun x => applyPredictor p x) = _
    rw [hk x]
    exact happ p x hp
  cases e with
  | absent => cases hs; rfl
  | name f p =>
    simp only at he
    obtain ⟨rfl, hp⟩ := he
    cases hs
    exact hf p d hp
  | array fs =>
    simp only at he
    have hrep : ∀ (fs : List (FilterName × PredictorParams)) (d : Bytes), (∀ x ∈ fs, x.1 = .flate ∧ x.2.predictor = 1) →
        encodeChain k fs d = .ok (k.deflate^[fs.length] d) ∧ decodeChain m k fs (k.deflate^[fs.length] d) = .ok d := by
      intro fs
      induction fs with
      | nil => intro d _; exact ⟨rfl, rfl⟩
      | cons x fs ih =>
        intro d h
        obtain ⟨f, p⟩ := x
        obtain ⟨h1, h2⟩ := h (f, p) (by simp)
        simp only at h1 h2
        subst h1
        have ih' := fun d => ih d (fun x hx => h x (by simp [hx]))
        constructor
        · show encodeChain k fs (k.deflate d) = _
          rw [(ih' (k.deflate d)).1]; rfl
        · unfold decodeChain
          rw [if_neg (by decide), List.length_cons, Function.iterate_succ_apply', hf p _ h2]
          exact (ih' d).2
    obtain ⟨h1, h2⟩ := hrep fs d he
    have : encodeChain k fs d = .ok stored := hs
    rw [h1] at this
    cases this
    exact h2

/-- A stand-in for zlib and libjpeg: each encoder marks the data with its own first byte. -/
def toyCodecs : Codecs where
  deflate := fun d => 1 :: d
  inflate := fun d => match d with | 1 :: r => .ok r | _ => .error .throw
  dctEncode := fun d => .ok (2 :: d)
  dctDecode := fun d => match d with | 2 :: r => .ok r | _ => .error .throw
  jpxDecode := fun _ => .error .throw

example : Spec.Lossless toyCodecs ∧ encodeBody toyCodecs (.array [(.flate, {}), (.flate, {})]) (b! "x") = .ok (1 :: 1 :: b! "x") :=
  ⟨fun _ => rfl, rfl⟩

/-- **C12**: a chain that names any filter but Flate and DCT never stores anything, it reports an error. -/
theorem C12_stores_or_reports (k : Codecs) (fs : List (FilterName × PredictorParams)) (d : Bytes)
    (h : ∃ x ∈ fs, x.1 ≠ .flate ∧ x.1 ≠ .dct) : ∃ e, encodeBody k (.array fs) d = .error e := by
  show ∃ e, encodeChain k fs d = .error e
  induction fs generalizing d with
  | nil => obtain ⟨x, hx, _⟩ := h; cases hx
  | cons y fs ih =>
    obtain ⟨f, p⟩ := y
    unfold encodeChain
    obtain ⟨x, hx, h1⟩ := h
    cases hf : filterEncode k f p d with
    | error e => exact ⟨e, rfl⟩
    | ok d' =>
      rcases List.mem_cons.1 hx with rfl | hx
      · simp only at h1
        cases f <;> simp [filterEncode] at hf h1
      · exact ih d' ⟨x, hx, h1⟩

example : ∃ e, encodeBody toyCodecs (.array [(.asciiHex, {}), (.flate, {})]) (b! "x") = .error e :=
  C12_stores_or_reports _ _ _ ⟨(.asciiHex, {}), by simp, by decide⟩

/-- **C12** is false for two different filters: they are applied in array order when decoding and also when encoding. -/
theorem C12_order_counterexample :
    (Spec.Lossless toyCodecs ∧ ∀ d, toyCodecs.dctDecode (2 :: d) = .ok d) ∧
    encodeBody toyCodecs (.array [(.flate, {}), (.dct, {})]) (b! "x") = .ok (2 :: 1 :: b! "x") ∧
    decodeBody .wrap toyCodecs (.array [(.flate, {}), (.dct, {})]) (2 :: 1 :: b! "x") = .error .throw := by
  refine ⟨⟨fun _ => rfl, fun _ => rfl⟩, rfl, rfl⟩

/-- **C12** is false for a Flate filter with a PNG predictor, whatever zlib does: the data is stored without applying the
predictor and the decoder undoes one. -/
theorem C12_predictor_counterexample (m : Overflow) (k : Codecs) (hk : Spec.Lossless k) :
    ∃ stored, encodeBody k (.name .flate { predictor := 12, columns := 2 }) [2, 7, 8] = .ok stored ∧
      decodeBody m k (.name .flate { predictor := 12, columns := 2 }) stored = .ok [7, 8] := by
  refine ⟨k.deflate [2, 7, 8], rfl, ?_⟩
  show (k.inflate (k.deflate [2, 7, 8]) >>= fun x => applyPredictor { predictor := 12, columns := 2 } x) = _
  rw [hk]
  show applyPredictor { predictor := 12, columns := 2 } [2, 7, 8] = _
  decide +kernel

end VPdf
