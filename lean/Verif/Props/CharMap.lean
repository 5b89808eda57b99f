import Verif.Lemmas.CharMap
/-
  Properties of character maps and buffer comparisons (C49, C50, C70, C71).
-/
namespace VPdf

/-- The key lies in the range: it has the length of the bounds, and as a big-endian number it lies between them. -/
def Spec.InRange (low high key : Bytes) : Prop :=
  key.length = low.length ∧ Spec.bigEndian low ≤ Spec.bigEndian key ∧ Spec.bigEndian key ≤ Spec.bigEndian high

instance (low high key : Bytes) : Decidable (Spec.InRange low high key) := by unfold Spec.InRange; infer_instance

/-- **C49, membership.**  When both ends of the range have the same length, a range contains exactly the keys of that length between
the ends. -/
theorem C49_contains (r : FontRange) (key : Bytes) (h : r.low.length = r.high.length) :
    r.contains key = true ↔ Spec.InRange r.low r.high key := by
  unfold FontRange.contains Spec.InRange
  rw [Bool.and_eq_true, valueLe_iff, valueLe_iff]
  constructor
  · rintro ⟨a, b⟩
    rcases a with a | a <;> rcases b with b | b
    · omega
    · omega
    · omega
    · exact ⟨a.1.symm, a.2, b.2⟩
  · rintro ⟨a, b, c⟩
    exact ⟨Or.inr ⟨a.symm, b⟩, Or.inr ⟨a.trans h, c⟩⟩

example : (FontRange.mk [0x20] [0x7E] (.hex [0, 0x20])).contains [0x41] = true ∧ Spec.InRange [0x20] [0x7E] [0x41] := by decide

/-- **C49, keys outside.**  A key that is not in the range is reported as an error. -/
theorem C49_outside (r : FontRange) (key : Bytes) (h : r.low.length = r.high.length) (hk : ¬Spec.InRange r.low r.high key) :
    r.map key = .error .throw := by
  have : r.contains key = false := by
    rw [← Bool.not_eq_true, C49_contains r key h]; exact hk
  unfold FontRange.map
  rw [if_pos this]

example : (FontRange.mk [0x20] [0x7E] (.hex [0, 0x20])).map [0x7F] = .error .throw :=
  C49_outside _ _ rfl (by decide)

/-- **C49, destination given as a string.**  A key in the range maps to the destination plus the distance of the key from the low
end, with as many bytes as the destination.
Missing: sums that do not fit into the bytes of the destination, and strings of more than four bytes; see the counterexamples. -/
theorem C49_string_partial (r : FontRange) (key v : Bytes) (hl : r.low.length = r.high.length) (hd : r.dest = .hex v)
    (hk : Spec.InRange r.low r.high key) (h4 : r.low.length ≤ 4) (hv : v.length ≤ 4)
    (hfit : Spec.bigEndian v + (Spec.bigEndian key - Spec.bigEndian r.low) < 256 ^ v.length) :
    ∃ w, r.map key = .ok w ∧ w.length = v.length ∧
      Spec.bigEndian w = Spec.bigEndian v + (Spec.bigEndian key - Spec.bigEndian r.low) := by
  have hc := (C49_contains r key hl).2 hk
  obtain ⟨k1, k2, k3⟩ := hk
  have hlt : Spec.bigEndian key < 2 ^ 32 := by
    have h1 := bigEndian_lt key
    have : (2 : Nat) ^ 32 = 256 ^ 4 := by norm_num
    rw [this]
    exact Nat.lt_of_lt_of_le h1 (Nat.pow_le_pow_right (by omega) (by omega))
  obtain ⟨w, e1, e2, e3⟩ := increment_eq (data := v) (count := Spec.bigEndian key - Spec.bigEndian r.low) hv (by omega) hfit
  refine ⟨w, ?_, e2, e3⟩
  unfold FontRange.map
  rw [if_neg (by rw [hc]; decide), hd]
  dsimp only
  rw [bufferDifference_eq k1 (by omega) k2, ok_bind, e1]

example : (FontRange.mk [0x01, 0xFE] [0x03, 0xFF] (.hex [0x20, 0xFF])).map [0x02, 0x01] = .ok [0x21, 0x02] := by decide +kernel

example : ∃ w, (FontRange.mk [0x01, 0xFE] [0x03, 0xFF] (.hex [0x20, 0xFF])).map [0x02, 0x01] = .ok w ∧ w.length = 2 ∧
    Spec.bigEndian w = 0x20FF + 3 :=
  C49_string_partial _ _ [0x20, 0xFF] rfl rfl (by decide) (by decide) (by decide) (by decide)

theorem hexItems_map (vs : List Bytes) : hexItems (vs.map .hex) = some vs := by
  induction vs with
  | nil => rfl
  | cons v vs ih => rw [List.map_cons, hexItems, ih]; rfl

/-- **C49, destination given as an array.**  A key in the range maps to the item whose index is the distance of the key from the low
end; without such an item an error is reported. -/
theorem C49_array (r : FontRange) (key : Bytes) (vs : List Bytes) (hl : r.low.length = r.high.length)
    (hd : r.dest = .arr (vs.map .hex)) (hk : Spec.InRange r.low r.high key) (h4 : r.low.length ≤ 4) :
    r.map key = match vs[Spec.bigEndian key - Spec.bigEndian r.low]? with
      | some v => .ok v
      | none => .error .throw := by
  have hc := (C49_contains r key hl).2 hk
  obtain ⟨k1, k2, k3⟩ := hk
  have hi := hexItems_map vs
  unfold FontRange.map
  rw [if_neg (by rw [hc]; decide), hd]
  dsimp only
  rw [hi]
  dsimp only
  rw [bufferDifference_eq k1 (by omega) k2, ok_bind]
  cases vs[Spec.bigEndian key - Spec.bigEndian r.low]? <;> rfl

example : (FontRange.mk [0x10] [0x12] (.arr [.hex [0, 1], .hex [0, 0x66, 0, 0x66, 0, 0x69]])).map [0x11] =
    .ok [0, 0x66, 0, 0x66, 0, 0x69] :=
  C49_array _ _ [[0, 1], [0, 0x66, 0, 0x66, 0, 0x69]] rfl rfl (by decide) (by decide)

theorem incrementLoop_ub (bs : Bytes) (i count : Nat) (result : Bytes) (h : 4 < i + bs.length) (hi : i ≤ 4) :
    incrementLoop i bs count result = .error .ub := by
  induction bs generalizing i count result with
  | nil => simp at h; omega
  | cons b bs ih =>
    rw [List.length_cons] at h
    rw [incrementLoop]
    by_cases h8 : 32 ≤ i * 8
    · rw [if_pos h8]
    · rw [if_neg h8]
      dsimp only
      split
      · exact ih _ _ _ (by omega) (by omega)
      · split
        · rfl
        · exact ih _ _ _ (by omega) (by omega)

/-- C49: a range whose array contains anything but hexadecimal strings maps nothing, so no value is taken from a wrong
place. -/
theorem C49_mixed_array (r : FontRange) (key : Bytes) (items : List Obj) (hd : r.dest = .arr items) (o : Obj) (ho : o ∈ items)
    (hx : ∀ v, o ≠ .hex v) : r.map key = .error .throw := by
  have hn : ∀ l : List Obj, o ∈ l → hexItems l = none := by
    intro l
    induction l with
    | nil => intro h; cases h
    | cons a l ih =>
      intro h
      rcases List.mem_cons.1 h with rfl | h
      · cases o <;> first | rfl | exact absurd rfl (hx _)
      · have hl := ih h
        cases a <;> first | rfl | simp [hexItems, hl]
  unfold FontRange.map
  rw [hd]
  simp only [hn items ho]
  split <;> rfl

example : (FontRange.mk [0] [2] (.arr [.int 1, .hex [5], .hex [6]])).map [0] = .error .throw :=
  C49_mixed_array _ _ _ rfl (.int 1) (by simp) (by simp)

/-- **C49 fails for long destinations.**  Whatever the range (of up to four bytes) and the key in it, a destination string of more
than four bytes – a ligature of three UTF-16 characters has six – makes the library shift a 32-bit number by 32 or more, which is
undefined. -/
theorem C49_long_counterexample (r : FontRange) (key v : Bytes) (hl : r.low.length = r.high.length) (hd : r.dest = .hex v)
    (hk : Spec.InRange r.low r.high key) (h4 : r.low.length ≤ 4) (hv : 4 < v.length) : r.map key = .error .ub := by
  have hc := (C49_contains r key hl).2 hk
  obtain ⟨k1, k2, k3⟩ := hk
  unfold FontRange.map
  rw [if_neg (by rw [hc]; decide), hd]
  dsimp only
  rw [bufferDifference_eq k1 (by omega) k2, ok_bind]
  unfold increment
  rw [incrementLoop_ub _ _ _ _ (by simpa using hv) (by omega)]
  rfl

example : (FontRange.mk [0x10] [0x12] (.hex [0, 0x66, 0, 0x66, 0, 0x69])).map [0x10] = .error .ub :=
  C49_long_counterexample _ _ _ rfl rfl (by decide) (by decide) (by decide)

/-- **C49 fails when the sum needs another byte.**  The range 0000-0FFF with the destination 00 maps the key 0C00 to 00, not to 0C00;
the range 00-01 with the destination FF reports an error for the key 01. -/
theorem C49_overflow_counterexample :
    (FontRange.mk [0, 0] [0x0F, 0xFF] (.hex [0])).map [0x0C, 0] = .ok [0] ∧
    (FontRange.mk [0] [1] (.hex [0xFF])).map [1] = .error .conversion := by
  decide +kernel

/-- **C49 fails when the ends have different lengths.**  The range FF-0001 contains the key 0000, which is smaller than the low end;
the distance is taken modulo 2^16. -/
theorem C49_lengths_counterexample :
    (FontRange.mk [0xFF] [0, 1] (.hex [0, 0])).contains [0, 0] = true ∧
    (FontRange.mk [0xFF] [0, 1] (.hex [0, 0])).map [0, 0] = .ok [0xFF, 0x01] := by
  decide +kernel

/-- **C50, order of keys.**  The order of buffers used for the keys of dictionaries is a strict total order, and two buffers of which
none is smaller are equal. -/
theorem C50_strict_total :
    (∀ a, bytesLt a a = false) ∧ (∀ a b c, bytesLt a b = true → bytesLt b c = true → bytesLt a c = true) ∧
    (∀ a b, bytesLt a b = false ∧ bytesLt b a = false ↔ a = b) := by
  refine ⟨bytesLt_irrefl, fun a b c => bytesLt_trans, fun a b => ⟨fun h => ?_, ?_⟩⟩
  · rcases bytesLt_total a b with x | x | x
    · rw [x] at h; exact absurd h.1 (by decide)
    · exact x
    · rw [x] at h; exact absurd h.2 (by decide)
  · rintro rfl
    exact ⟨bytesLt_irrefl a, bytesLt_irrefl a⟩

example : bytesLt (b! "Kid") (b! "Kids") = true ∧ bytesLt [0x80] [0x00] = true := by decide

/-- **C50, numeric order.**  The comparison of codes is a total order: reflexive, transitive, antisymmetric and total; for codes of
the same length it is the order of the big-endian numbers, and a shorter code is always smaller. -/
theorem C50_value_order :
    (∀ a b, valueLe a b = true ∨ valueLe b a = true) ∧
    (∀ a b c, valueLe a b = true → valueLe b c = true → valueLe a c = true) ∧
    (∀ a b, valueLe a b = true → valueLe b a = true → a = b) ∧
    (∀ a b, a.length = b.length → (valueLe a b = true ↔ Spec.bigEndian a ≤ Spec.bigEndian b)) ∧
    (∀ a b, a.length < b.length → valueLe a b = true ∧ valueLe b a = false) := by
  refine ⟨fun a b => ?_, fun a b c => ?_, fun a b => ?_, fun a b h => ?_, fun a b h => ⟨?_, ?_⟩⟩
  · rw [valueLe_iff, valueLe_iff]; omega
  · rw [valueLe_iff, valueLe_iff, valueLe_iff]; omega
  · rw [valueLe_iff, valueLe_iff]
    intro h1 h2
    exact bigEndian_inj (by omega) (by omega)
  · rw [valueLe_iff]; omega
  · rw [valueLe_iff]; exact Or.inl h
  · rw [← Bool.not_eq_true, valueLe_iff]; omega

example : valueLe [0x7F] [0x80] = true ∧ valueLe [0xFF] [0, 0] = true ∧ valueLe [0, 0] [0xFF] = false := by decide

/-- **C70 fails.**  A text is "equal" to every buffer that is the beginning of it, in particular to the empty buffer. -/
theorem C70_counterexample :
    textEqBuffer (b! "endobj") (b! "end") = true ∧ ∀ t, textEqBuffer t [] = true := ⟨by decide, fun _ => rfl⟩

/-- **C70, what holds.**  For texts and buffers without zero bytes, the comparison says whether the buffer is the beginning of the
text; it is equality when the lengths agree.
Missing: equality in general. -/
theorem C70_prefix_partial (t b : Bytes) (ht : (0 : UInt8) ∉ t) (hb : (0 : UInt8) ∉ b) :
    (textEqBuffer t b = true ↔ b <+: t) ∧ (t.length = b.length → (textEqBuffer t b = true ↔ t = b)) := by
  have key : textEqBuffer t b = true ↔ b <+: t := by
    unfold textEqBuffer
    induction b generalizing t with
    | nil => simp [strncmpEq]
    | cons y b ih =>
      have hy : y ≠ 0 := fun e => hb (by simp [e])
      cases t with
      | nil =>
        simp only [List.length_cons, List.nil_append, strncmpEq]
        simp [Ne.symm hy]
      | cons x t =>
        have hx : x ≠ 0 := fun e => ht (by simp [e])
        simp only [List.length_cons, List.cons_append, strncmpEq]
        by_cases hxy : x = y
        · subst hxy
          rw [if_neg (by simp), if_neg hx, ih t (fun e => ht (by simp [e])) (fun e => hb (by simp [e]))]
          simp [List.cons_prefix_cons]
        · rw [if_pos hxy]
          simp [List.cons_prefix_cons, Ne.symm hxy]
  refine ⟨key, fun hl => ?_⟩
  rw [key]
  constructor
  · intro h
    exact (h.eq_of_length hl.symm).symm
  · rintro rfl
    exact List.prefix_refl _

example : textEqBuffer (b! "xref") (b! "xref") = true ∧ textEqBuffer (b! "xref") (b! "xreg") = false := by decide

/-- **C71.**  A key in the code space that is covered by a single entry of the map gets the value of this entry, wherever in the map
it stands; a key outside of the code space, or without an entry, is reported as an error. -/
theorem C71_lookup (m : CharMap) (key : Bytes) :
    ((∀ c ∈ m.codeSpace, ¬(valueLe c.1 key = true ∧ valueLe key c.2 = true)) → m.map key = .error .throw) ∧
    ((∀ r ∈ m.ranges, r.contains key = false) → (∀ c ∈ m.chars, c.1 ≠ key) → m.map key = .error .throw) ∧
    (∀ c ∈ m.codeSpace, valueLe c.1 key = true → valueLe key c.2 = true →
      (∀ r ∈ m.ranges, r.contains key = true → (∀ r' ∈ m.ranges, r'.contains key = true → r' = r) → m.map key = r.map key) ∧
      ((∀ r ∈ m.ranges, r.contains key = false) →
        ∀ c ∈ m.chars, c.1 = key → (∀ c' ∈ m.chars, c'.1 = key → c' = c) → m.map key = .ok c.2)) := by
  refine ⟨fun h => ?_, fun h1 h2 => ?_, fun c hc h1 h2 => ⟨fun r hr hk hu => ?_, fun hn c hc hk hu => ?_⟩⟩
  · unfold CharMap.map
    rw [if_neg]
    rw [List.any_eq_true]
    rintro ⟨c, hc, h'⟩
    rw [Bool.and_eq_true] at h'
    exact h c hc ⟨h'.2, h'.1⟩
  · have e1 : m.ranges.find? (fun r => r.contains key) = none := List.find?_eq_none.2 fun r hr => by simp [h1 r hr]
    have e2 : m.chars.find? (fun c => c.1 == key) = none := List.find?_eq_none.2 fun c hc => by simpa using h2 c hc
    unfold CharMap.map
    rw [e1]
    dsimp only
    rw [e2]
    split <;> rfl
  · have hin : (m.codeSpace.any fun r => valueLe key r.2 && valueLe r.1 key) = true :=
      List.any_eq_true.2 ⟨c, hc, by rw [h1, h2]; rfl⟩
    unfold CharMap.map
    rw [if_pos hin]
    cases e : m.ranges.find? fun r => r.contains key with
    | none => exact absurd hk (by simpa using List.find?_eq_none.1 e r hr)
    | some r' => rw [hu r' (List.mem_of_find?_eq_some e) (List.find?_some (p := fun r : FontRange => r.contains key) e)]
  · have hin : (m.codeSpace.any fun r => valueLe key r.2 && valueLe r.1 key) = true := by
      rename_i c0 hc0
      exact List.any_eq_true.2 ⟨c0, hc0, by rw [h1, h2]; rfl⟩
    have e1 : m.ranges.find? (fun r => r.contains key) = none := List.find?_eq_none.2 fun r hr => by simp [hn r hr]
    unfold CharMap.map
    rw [if_pos hin, e1]
    dsimp only
    cases e : m.chars.find? fun c => c.1 == key with
    | none => exact absurd hk (by simpa using List.find?_eq_none.1 e c hc)
    | some c' => rw [hu c' (List.mem_of_find?_eq_some e) (by simpa using List.find?_some e)]

/-- A map with one range and two single characters. -/
def sampleCMap : CharMap where
  codeSpace := [([0], [0xFF])]
  ranges := [⟨[0x20], [0x7E], .hex [0, 0x20]⟩]
  chars := [([0x80], [0x20, 0xAC]), ([0x85], [0x20, 0x26])]

example : sampleCMap.map [0x41] = .ok [0, 0x41] ∧ sampleCMap.map [0x85] = .ok [0x20, 0x26] ∧
    sampleCMap.map [0x86] = .error .throw ∧ sampleCMap.map [0, 0x41] = .error .throw := by decide +kernel

end VPdf
