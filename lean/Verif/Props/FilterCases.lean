import Verif.Props.Filters
import Verif.Props.Encryption
/-
  More of C09, C10, C11, C12, C43 and C55: the filters behind the bodies of streams, rows of any width, data with an incomplete
  block.
-/
namespace VPdf

open Spec

/-- The parameters of a predictor that fit give the rows of PNG. -/
theorem applyPredictor_rows (colors bits columns : Nat) (predictor : Int) (hp : 10 ≤ predictor)
    (hfit : colors * bits < 2 ^ 32 ∧ colors * columns * bits + 7 < 2 ^ 32 ∧ colors * columns < 2 ^ 32 ∧
      colors < 2 ^ 32 ∧ bits < 2 ^ 32 ∧ columns < 2 ^ 32) (data : Bytes) :
    applyPredictor { predictor := predictor, colors := colors, bits := bits, columns := columns } data =
      undoRows (((colors * bits : Nat) : Int) / 8).toNat (Spec.pngBytesPerRow colors bits columns)
        (List.replicate (Spec.pngBytesPerRow colors bits columns) 0) data := by
  obtain ⟨f1, f2, f3, f4, f5, f6⟩ := hfit
  have hconv : ∀ x : Nat, x < 2 ^ 32 → safeConvert .u32 .i64 (x : Int) = .ok (x : Int) := by
    intro x hx
    refine C13_error_only_if_unfit_partial .u32 .i64 (by decide) (by decide) _ ?_ ?_ (fun h => absurd h.1 (by decide))
    · rw [fits_nonneg (by omega)]; simp [IntTy.i64]; omega
    · rw [fits_nonneg (by omega)]; simp [IntTy.u32]; omega
  have hf32 : ∀ x : Nat, x < 2 ^ 32 → Spec.Fits .u32 (x : Int) := by
    intro x hx; rw [fits_nonneg (by omega)]; simp [IntTy.u32]; omega
  have hmul : ∀ x y : Nat, x < 2 ^ 32 → y < 2 ^ 32 → x * y < 2 ^ 32 →
      safeMultiply .u32 .u32 (x : Int) (y : Int) = .ok ((x * y : Nat) : Int) := by
    intro x y hx hy hxy
    rw [C14_multiplication .u32 .u32 (by decide) (by decide) rfl rfl _ _ (hf32 x hx) (hf32 y hy)]
    have : (x : Int) * y = ((x * y : Nat) : Int) := by push_cast; rfl
    rw [this, if_pos]
    show ((x * y : Nat) : Int) < 2 ^ 32
    omega
  have hadd : safeAddition .u32 .u32 .i32 ((colors * columns * bits : Nat) : Int) 7 =
      .ok ((colors * columns * bits + 7 : Nat) : Int) := by
    have hn := hf32 (colors * columns * bits) (by omega)
    have hi : Spec.Builtin IntTy.i32 := by decide
    have hu : Spec.Builtin IntTy.u32 := by decide
    obtain ⟨k, s, h1, h2, h3, h4, h5⟩ := safeAdd_sum .u32 .u32 .i32 hu hi rfl rfl (by decide) (by decide)
      ((colors * columns * bits : Nat) : Int) 7 hn (by decide) (by decide)
    have hk : k = 32 := by have := h4 (by decide); simp [IntTy.u32] at this h5; omega
    subst hk
    rw [Int.emod_eq_of_lt (by omega) (by omega)] at h2
    have e : ((colors * columns * bits : Nat) : Int) + 7 = ((colors * columns * bits + 7 : Nat) : Int) := by push_cast; rfl
    rw [e] at h2
    unfold safeAddition
    rw [h1, bindOk]
    have hlt1 : cppLt .u32 .i32 ((colors * columns * bits : Nat) : Int) 0 = false := by
      rw [cppLt_nonneg hu hi (Int.natCast_nonneg _) (by omega) hn (by decide)]
      exact decide_eq_false (by have := Int.natCast_nonneg (colors * columns * bits); omega)
    have hlt2 : cppLt .u32 .u32 ((colors * columns * bits + 7 : Nat) : Int) ((colors * columns * bits : Nat) : Int) = false := by
      rw [cppLt_nonneg hu hu (Int.natCast_nonneg _) (Int.natCast_nonneg _) (hf32 _ f2) hn]
      exact decide_eq_false (by omega)
    dsimp only
    rw [hlt1, h2, hlt2]
    rfl
  have hrow : (((colors * columns * bits + 7 : Nat) : Int) / 8).toNat = Spec.pngBytesPerRow colors bits columns := by
    unfold Spec.pngBytesPerRow
    have : colors * columns * bits = colors * bits * columns := by ring
    rw [this]
    omega
  unfold applyPredictor
  rw [if_neg (by simp; omega), if_neg (by simp; omega), if_neg (by simp; omega)]
  rw [hconv _ f4, bindOk, hconv _ f6, bindOk, hconv _ f5, bindOk, hmul _ _ f4 f5 f1, bindOk, hmul _ _ f4 f6 f3, bindOk,
    hmul _ _ f3 f5 (by omega), bindOk, hadd, bindOk]
  dsimp only
  rw [hrow]

/-- A loop that adds to other places leaves a byte. -/
theorem fold_other (g : Bytes → Nat → Byte) (j : Nat) : ∀ (l : List Nat) (cur : Bytes), (∀ i ∈ l, i ≠ j) →
    at0 (l.foldl (fun cur i => addAt cur i (g cur i)) cur) j = at0 cur j
  | [], _, _ => rfl
  | i :: l, cur, h => by
    rw [List.foldl_cons, fold_other g j l _ (fun x hx => h x (by simp [hx])), at0_addAt, if_neg (fun hh => h i (by simp) hh.1)]

theorem undoAverage_last (bpp : Nat) (prior row : Bytes) (j : Nat) (h1 : bpp ≤ j) (h2 : row.length - bpp ≤ j) :
    at0 (undoAverage bpp prior row) j = at0 row j := by
  unfold undoAverage
  rw [fold_other (fun cur i => UInt8.ofNat (((at0 cur i).toNat + (at0 prior (bpp + i)).toNat) / 2)) j _ _
      (fun i hi => by have := List.mem_range.mp hi; omega),
    fold_other (fun _ i => at0 prior i / 2) j _ _ (fun i hi => by have := List.mem_range.mp hi; omega)]

theorem undoPaeth_last (bpp : Nat) (prior row : Bytes) (j : Nat) (h1 : bpp ≤ j) (h2 : row.length - bpp ≤ j) :
    at0 (undoPaeth bpp prior row) j = at0 row j := by
  unfold undoPaeth
  rw [fold_other (fun cur i => paeth (at0 cur i) (at0 prior (bpp + i)) (at0 prior i)) j _ _
      (fun i hi => by have := List.mem_range.mp hi; omega),
    fold_other (fun _ i => at0 prior i) j _ _ (fun i hi => by have := List.mem_range.mp hi; omega)]

theorem sub_ofNat_ne (x : Byte) (n : Nat) (h0 : n ≠ 0) (h1 : n < 256) : x - UInt8.ofNat n ≠ x := by
  intro h
  have h2 := congrArg (fun y => (y + UInt8.ofNat n).toNat) h
  simp only [UInt8.sub_add_cancel, UInt8.toNat_add, UInt8.toNat_ofNat'] at h2
  have := x.toNat_lt
  omega

/-- One row, in whole bytes per pixel, of type Average or Paeth and at least two pixels wide: its last byte stays as it is in
the file. -/
theorem last_byte_stays (colors columns ty : Nat) (predictor : Int) (raw : Bytes) (hp : 10 ≤ predictor) (hc : 1 ≤ colors)
    (hw : 2 ≤ columns) (hfit : colors * columns * 8 + 7 < 2 ^ 32) (hl : raw.length = colors * columns) (ht : ty = 3 ∨ ty = 4) :
    ∃ out, applyPredictor { predictor := predictor, colors := colors, bits := (8 : Nat), columns := columns }
      (UInt8.ofNat ty :: raw) = .ok out ∧ at0 out (colors * columns - 1) = at0 raw (colors * columns - 1) := by
  have hm : colors * 2 ≤ colors * columns := Nat.mul_le_mul_left _ hw
  have hm2 : columns ≤ colors * columns := Nat.le_mul_of_pos_left _ hc
  rw [applyPredictor_rows colors 8 columns predictor hp ⟨by omega, hfit, by omega, by omega, by omega, by omega⟩]
  have hb : (((colors * 8 : Nat) : Int) / 8).toNat = colors := by omega
  have hr : Spec.pngBytesPerRow colors 8 columns = colors * columns := by
    unfold Spec.pngBytesPerRow
    have : colors * 8 * columns = colors * columns * 8 := by ring
    rw [this]; omega
  rw [hb, hr]
  unfold undoRows
  rw [if_neg (by omega), List.take_of_length_le (by omega), List.drop_of_length_le (by omega)]
  have hn : undoRows colors (colors * columns) = undoRows colors (colors * columns) := rfl
  rcases ht with rfl | rfl
  · refine ⟨undoAverage colors (List.replicate (colors * columns) 0) raw, ?_, undoAverage_last _ _ _ _ (by omega) (by omega)⟩
    unfold undoRow
    rw [if_neg (by decide), if_neg (by decide), if_pos (by decide), if_neg (by omega), bindOk]
    unfold undoRows
    rw [bindOk, List.append_nil]; rfl
  · refine ⟨undoPaeth colors (List.replicate (colors * columns) 0) raw, ?_, undoPaeth_last _ _ _ _ (by omega) (by omega)⟩
    unfold undoRow
    rw [if_neg (by decide), if_neg (by decide), if_neg (by decide), if_pos (by decide), if_neg (by omega), bindOk]
    unfold undoRows
    rw [bindOk, List.append_nil]; rfl

/-- **C11** is false of Average rows of any width from two pixels and any number of colours: no row whose last pixel has a left
neighbour of 2 or more is decoded to itself. -/
theorem C11_average_rows_counterexample (colors columns : Nat) (predictor : Int) (row : Bytes) (hp : 10 ≤ predictor)
    (hc : 1 ≤ colors) (hw : 2 ≤ columns) (hfit : colors * columns * 8 + 7 < 2 ^ 32) (hl : row.length = colors * columns)
    (hx : 2 ≤ (row.getD (colors * columns - 1 - colors) 0).toNat) :
    applyPredictor { predictor := predictor, colors := colors, bits := (8 : Nat), columns := columns }
      (Spec.pngFilter colors (List.replicate (colors * columns) 0) [(3, row)]) ≠ .ok row := by
  intro h
  have hm : colors * 2 ≤ colors * columns := Nat.mul_le_mul_left _ hw
  have e : Spec.pngFilter colors (List.replicate (colors * columns) 0) [(3, row)] =
      UInt8.ofNat 3 :: Spec.pngFilterRow 3 colors (List.replicate (colors * columns) 0) row := by
    simp [Spec.pngFilter]
  rw [e] at h
  obtain ⟨out, h1, h2⟩ := last_byte_stays colors columns 3 predictor _ hp hc hw hfit
    (by rw [pngFilterRow_length]; exact hl : (Spec.pngFilterRow 3 colors (List.replicate (colors * columns) 0) row).length = _) (.inl rfl)
  rw [h] at h1
  cases h1
  rw [at0_pngFilterRow _ _ _ _ _ (by omega)] at h2
  refine sub_ofNat_ne _ _ ?_ ?_ h2.symm
  · simp only [Spec.pngPredict, Spec.leftOf]
    rw [if_neg (by omega)]; omega
  · have hz : at0 (List.replicate (colors * columns) 0) (colors * columns - 1) = 0 := by
      simp [at0, List.getD_eq_getElem?_getD, List.getElem?_replicate]; split <;> rfl
    simp only [Spec.pngPredict, Spec.leftOf]
    rw [if_neg (by omega), hz]
    have := (row.getD (colors * columns - 1 - colors) 0).toNat_lt
    simp only [UInt8.toNat_zero]; omega

/-- **C11** is false of Paeth rows of any width from two pixels and any number of colours: no row whose last pixel has a left
neighbour other than 0 is decoded to itself. -/
theorem C11_paeth_rows_counterexample (colors columns : Nat) (predictor : Int) (row : Bytes) (hp : 10 ≤ predictor)
    (hc : 1 ≤ colors) (hw : 2 ≤ columns) (hfit : colors * columns * 8 + 7 < 2 ^ 32) (hl : row.length = colors * columns)
    (hx : (row.getD (colors * columns - 1 - colors) 0).toNat ≠ 0) :
    applyPredictor { predictor := predictor, colors := colors, bits := (8 : Nat), columns := columns }
      (Spec.pngFilter colors (List.replicate (colors * columns) 0) [(4, row)]) ≠ .ok row := by
  intro h
  have hm : colors * 2 ≤ colors * columns := Nat.mul_le_mul_left _ hw
  have e : Spec.pngFilter colors (List.replicate (colors * columns) 0) [(4, row)] =
      UInt8.ofNat 4 :: Spec.pngFilterRow 4 colors (List.replicate (colors * columns) 0) row := by
    simp [Spec.pngFilter]
  rw [e] at h
  obtain ⟨out, h1, h2⟩ := last_byte_stays colors columns 4 predictor _ hp hc hw hfit
    (by rw [pngFilterRow_length]; exact hl : (Spec.pngFilterRow 4 colors (List.replicate (colors * columns) 0) row).length = _) (.inr rfl)
  rw [h] at h1
  cases h1
  rw [at0_pngFilterRow _ _ _ _ _ (by omega)] at h2
  have hz : at0 (List.replicate (colors * columns) 0) (colors * columns - 1) = 0 := by
    simp [at0, List.getD_eq_getElem?_getD, List.getElem?_replicate]; split <;> rfl
  have hz2 : (List.replicate (colors * columns) (0 : UInt8)).getD (colors * columns - 1 - colors) 0 = 0 := by
    simp [List.getD_eq_getElem?_getD, List.getElem?_replicate]; split <;> rfl
  have hpr : Spec.pngPredict 4 (row.getD (colors * columns - 1 - colors) 0).toNat 0 0 =
      (row.getD (colors * columns - 1 - colors) 0).toNat := by
    simp only [Spec.pngPredict]
    rw [if_pos (by omega)]
  have hlt := (row.getD (colors * columns - 1 - colors) 0).toNat_lt
  refine sub_ofNat_ne _ _ ?_ ?_ h2.symm <;>
  · simp only [Spec.leftOf]
    rw [if_neg (by omega), if_neg (by omega), hz, hz2]
    simp only [UInt8.toNat_zero]
    rw [hpr]
    omega

example : ([10, 20, 30, 40, 50, 60] : Bytes).length = 3 * 2 ∧ 2 ≤ (([10, 20, 30, 40, 50, 60] : Bytes).getD (3 * 2 - 1 - 3) 0).toNat := by
  decide

/-- **C11**, the Paeth predictor: for all neighbours of a byte, the library predicts what PNG predicts, ties included.  (What
it does with the prediction is another matter: `C11_paeth_rows_counterexample`.) -/
theorem C11_paeth_predictor (a b c : Byte) : paeth a b c = UInt8.ofNat (Spec.pngPredict 4 a.toNat b.toNat c.toNat) := by
  unfold paeth
  simp only [Spec.pngPredict]
  split
  · rw [UInt8.ofNat_toNat]
  · split <;> rw [UInt8.ofNat_toNat]

example : paeth 3 9 6 = 6 ∧ paeth 5 5 5 = 5 ∧ paeth 10 12 11 = 11 := by decide

/-- **C09** of streams: the body of a stream with the ASCIIHex filter is what its hexadecimal text denotes, for a single filter
and for one in an array.  Missing as in `C09_hexadecimal_text_partial`. -/
theorem C09_stream_partial (m : Overflow) (k : Codecs) (p : PredictorParams) (s v rest : Bytes)
    (h : Spec.hexBytes (Spec.strip s) = some v) (heven : (Spec.strip s).length % 2 = 0) :
    decodeBody m k (.name .asciiHex p) (s ++ 0x3E :: rest) = .ok v ∧
    decodeBody m k (.array [(.asciiHex, p)]) (s ++ 0x3E :: rest) = .ok v := by
  have hd := (C09_hexadecimal_text_partial s v rest h heven).1
  constructor
  · simp [decodeBody, filterDecode, hd]
  · simp [decodeBody, decodeChain, filterDecode, hd, bindOk]

/-- **C10** of streams: the body of a stream with the ASCII85 filter is what its text denotes.  Missing as in
`C10_decodes_base85_partial`. -/
theorem C10_stream_partial (m : Overflow) (k : Codecs) (p : PredictorParams) (d s rest : Bytes)
    (hs : Spec.strip s = Spec.base85 d) (hd : ∀ b ∈ Spec.groupHeads d, b.toNat < 128) :
    decodeBody m k (.name .ascii85 p) (s ++ 0x7E :: 0x3E :: rest) = .ok d ∧
    decodeBody m k (.array [(.ascii85, p)]) (s ++ 0x7E :: 0x3E :: rest) = .ok d := by
  have hd := (C10_decodes_base85_partial m d s rest hs hd).1
  constructor
  · simp [decodeBody, filterDecode, hd]
  · simp [decodeBody, decodeChain, filterDecode, hd, bindOk]

/-- **C12** of hexadecimal text that was compressed before: the filters of an array are undone in their order, whatever their
number: first the hexadecimal text, then as many layers of compression as there are. -/
theorem C12_mixed_chain (m : Overflow) (k : Codecs) (hk : Spec.Lossless k) (p q : PredictorParams) (hq : q.predictor = 1)
    (d s rest : Bytes) (n : Nat) (h : Spec.strip s = ((k.deflate)^[n] d).flatMap hex2) :
    decodeBody m k (.array ((.asciiHex, p) :: List.replicate n (.flate, q))) (s ++ 0x3E :: rest) = .ok d := by
  have h1 := C09_inverts_encoding _ s rest h
  have hf : ∀ x : Bytes, filterDecode m k .flate q (k.deflate x) = .ok x := by
    intro x
    simp [filterDecode, hk x, bindOk, applyPredictor, hq]
  have hn : ∀ (n : Nat) (d : Bytes), decodeChain m k (List.replicate n (.flate, q)) ((k.deflate)^[n] d) = .ok d := by
    intro n
    induction n with
    | zero => intro d; rfl
    | succ n ih =>
      intro d
      rw [List.replicate_succ, Function.iterate_succ_apply']
      unfold decodeChain
      simp only [reduceCtorEq, if_false, hf, bindOk]
      exact ih d
  show decodeChain m k _ _ = _
  unfold decodeChain
  simp only [reduceCtorEq, if_false, filterDecode, h1, bindOk]
  exact hn n d

/-- **C55** of changed streams with one filter, a crypt filter: after saving and opening, the program is given the body it set
(with the bytes that encryption appends, C43), and without encryption the stored data. -/
theorem C55_crypt_body_partial {k : Crypto} (hk : Lawful k) {F F' : SecureFile} {d : EncDict} {key : Bytes}
    (hF : Reopened k F F' d key) {number generation : Nat} (hn : number ≠ 0) (hent : F'.entry number generation = some false)
    (m : Overflow) (c : Codecs) (encryptionDirty : Bool) {s : StreamState} {u : FilterUse} {name r iv body stored : Bytes} (r' : Bytes)
    (hi : iv.length = 16) (hlen : body.length + 32 < 2147483647) (hf : s.filter = .one u) (hu : u.filter = .crypt)
    (hname : u.handler = some name) (hx : s.exempt = false) (he : d.entry ≠ some (number, generation))
    (hs : s.dirty = true) (hb : s.decoded = some body)
    (h : bodyEncoded m c k F encryptionDirty s number generation r iv = .ok stored) :
    streamBody m c k F' (reloaded s stored) number generation r' = .ok (body ++ appended (algorithmForFilter d name) body) ∧
    decodeBody m c (.name u.filter u.params) stored = .ok stored := by
  have hd := C55_changed_crypt_partial hk hF hn hent m c encryptionDirty r' hi hlen hf hu hname hx he hs hb h
  constructor
  · unfold streamBody
    have e1 : (reloaded s stored).decoded = none := rfl
    have e2 : (reloaded s stored).filter = s.filter := rfl
    rw [e1, e2, hf]
    dsimp only
    rw [hd, ok_bind, if_pos hu]
  · simp [decodeBody, hu]

/-- **C43**, damaged data: what is longer than one block and not a number of whole blocks is refused, whatever the key is, and
so is what is shorter than a block. -/
theorem C43_incomplete (k : Crypto) (key data : Bytes) (n : Nat) (hkey : n ≤ key.length) (hd : data.length % 16 ≠ 0) :
    ∃ e, (e = .throw ∨ e = .conversion) ∧ aesDecrypt k key n data = .error e := by
  unfold aesDecrypt
  split
  · exact ⟨_, .inl rfl, rfl⟩
  · rename_i h1
    rw [if_neg (by omega)]
    split
    · exact ⟨_, .inl rfl, rfl⟩
    · rw [if_neg (by omega)]
      unfold safeConvert
      split
      · rw [bindOk]
        unfold evpDecrypt
        rw [if_pos (by rw [List.length_drop]; omega)]
        exact ⟨_, .inl rfl, rfl⟩
      · exact ⟨_, .inr rfl, rfl⟩

example : ([1, 2, 3] : Bytes).length % 16 ≠ 0 ∧ (List.replicate 33 (7 : Byte)).length % 16 ≠ 0 := by decide

end VPdf
