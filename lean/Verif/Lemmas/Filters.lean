import Verif.Model.Filters
import Verif.Spec.Filters
import Verif.Lemmas.Lex
import Mathlib.Tactic.Ring
import Mathlib.Tactic.Linarith
/-
  Lemmas about the filters.
-/
namespace VPdf

theorem isWhiteSpace_iff_spec : ∀ c : Byte, isWhiteSpace c = Spec.whiteSpace.contains c := by
  apply forall_byte; decide +kernel

theorem strip_ws {c : Byte} {s : Bytes} (h : isWhiteSpace c = true) : Spec.strip (c :: s) = Spec.strip s := by
  unfold Spec.strip
  rw [isWhiteSpace_iff_spec] at h
  rw [List.filter_cons_of_neg]
  rw [h]; simp

theorem strip_not_ws {c : Byte} {s : Bytes} (h : isWhiteSpace c = false) :
    Spec.strip (c :: s) = c :: Spec.strip s := by
  unfold Spec.strip
  rw [isWhiteSpace_iff_spec] at h
  rw [List.filter_cons_of_pos]
  rw [h]; rfl

/-- What ends the data: the end of the buffer, or the end-of-data marker with anything behind it. -/
def EndsHex (t : Bytes) : Prop := t = [] ∨ ∃ rest, t = 0x3E :: rest

theorem asciiHex_ends {t : Bytes} (h : EndsHex t) (pend : Option Byte) :
    asciiHexDecode pend t = asciiHexDecode.asciiHexFinish pend := by
  rcases h with rfl | ⟨rest, rfl⟩
  · unfold asciiHexDecode; rfl
  · unfold asciiHexDecode; simp

theorem hexVal_not_special {c : Byte} {a : Nat} (h : Spec.hexVal c = some a) :
    (c == 0x3E) = false ∧ isWhiteSpace c = false := by
  have key : ∀ c : Byte, (Spec.hexVal c).isSome = true → (c == 0x3E) = false ∧ isWhiteSpace c = false := by
    apply forall_byte; decide +kernel
  exact key c (by rw [h]; rfl)

theorem parseByte_nul {c : Byte} {a : Nat} (h : Spec.hexVal c = some a) :
    parseByte 16 [c, 0] = .ok (UInt8.ofNat a) := by
  have key : ∀ c : Byte, (Spec.hexVal c).isSome = true →
      parseByte 16 [c, 0] = .ok (UInt8.ofNat ((Spec.hexVal c).getD 0)) := by
    apply forall_byte; decide +kernel
  have := key c (by rw [h]; rfl)
  rw [h] at this; exact this

/-- The value of the last digit as the library computes it: a single remaining digit counts as the low digit. -/
def lastByte : Bytes → Bytes
  | [x] => [UInt8.ofNat ((Spec.hexVal x).getD 0)]
  | _ => []

/-- Everything that `asciiHexDecode` does on hexadecimal text: complete pairs are the bytes denoted; `z` is the
remaining digit, if any. -/
theorem asciiHexDecode_text (t : Bytes) (ht : EndsHex t) : ∀ (s : Bytes) (pend : Option Byte) (ds z v : Bytes),
    pend.toList ++ Spec.strip s = ds ++ z → ds.length % 2 = 0 → z.length ≤ 1 → Spec.hexBytes ds = some v →
    (∀ x ∈ z, (Spec.hexVal x).isSome) → asciiHexDecode pend (s ++ t) = .ok (v ++ lastByte z)
  | [], pend, ds, z, v, h, he, hz, hv, hd => by
    rw [List.nil_append, asciiHex_ends ht]
    have hl : pend.toList.length ≤ 1 := by cases pend <;> simp
    simp only [Spec.strip, List.filter_nil, List.append_nil] at h
    rw [h, List.length_append] at hl
    have hds : ds = [] := by
      cases ds with
      | nil => rfl
      | cons a ds => cases ds with
        | nil => simp at he
        | cons b ds => simp at hl; omega
    subst hds
    cases hv
    rw [List.nil_append] at h
    cases pend with
    | none => simp at h; subst h; rfl
    | some p =>
      simp at h; subst h
      obtain ⟨a, ha⟩ := Option.isSome_iff_exists.1 (hd p (by simp))
      unfold asciiHexDecode.asciiHexFinish
      dsimp only
      rw [parseByte_nul ha]
      simp only [lastByte, ha]; rfl
  | c :: s, pend, ds, z, v, h, he, hz, hv, hd => by
    by_cases hw : isWhiteSpace c = true
    · rw [strip_ws hw] at h
      have ih := asciiHexDecode_text t ht s pend ds z v h he hz hv hd
      rw [List.cons_append]
      unfold asciiHexDecode
      have hc : (c == 0x3E) = false := by
        revert hw; revert c; apply forall_byte; decide +kernel
      simp only [hc, hw, Bool.false_eq_true, if_false, if_true]
      exact ih
    · have hw' : isWhiteSpace c = false := by simpa using hw
      rw [strip_not_ws hw'] at h
      rw [List.cons_append]
      have hall : ∀ x ∈ ds ++ z, (Spec.hexVal x).isSome := by
        intro x hx
        rcases List.mem_append.1 hx with hx | hx
        · have key : ∀ (ds v : Bytes), Spec.hexBytes ds = some v → ∀ x ∈ ds, (Spec.hexVal x).isSome := by
            intro ds
            induction ds using Spec.hexBytes.induct with
            | case1 => intro v _ x hx; cases hx
            | case2 y =>
              intro v hv x hx
              simp at hx; subst hx
              unfold Spec.hexBytes at hv
              cases h : Spec.hexVal x with
              | none => rw [h] at hv; simp at hv
              | some a => rfl
            | case3 y y' rest ih =>
              intro v hv x hx
              unfold Spec.hexBytes at hv
              cases h : Spec.hexVal y with
              | none => rw [h] at hv; simp at hv
              | some a =>
                cases h' : Spec.hexVal y' with
                | none => rw [h, h'] at hv; simp at hv
                | some b =>
                  cases h'' : Spec.hexBytes rest with
                  | none => rw [h, h', h''] at hv; simp at hv
                  | some r =>
                    simp at hx
                    rcases hx with rfl | rfl | hx
                    · rw [h]; rfl
                    · rw [h']; rfl
                    · exact ih r h'' x hx
          exact key ds v hv x hx
        · exact hd x hx
      have hcm : c ∈ ds ++ z := by rw [← h]; simp
      obtain ⟨a, ha⟩ := Option.isSome_iff_exists.1 (hall c hcm)
      have hc := (hexVal_not_special ha).1
      unfold asciiHexDecode
      simp only [hc, hw', Bool.false_eq_true, if_false]
      cases pend with
      | none =>
        exact asciiHexDecode_text t ht s (some c) ds z v (by simpa using h) he hz hv hd
      | some p =>
        have hpm : p ∈ ds ++ z := by rw [← h]; simp
        obtain ⟨b, hb⟩ := Option.isSome_iff_exists.1 (hall p hpm)
        simp only [Option.toList_some, List.cons_append, List.nil_append] at h
        cases ds with
        | nil =>
          rw [List.nil_append] at h
          rw [← h] at hz; simp at hz
        | cons d1 ds =>
          cases ds with
          | nil => simp at he
          | cons d2 ds =>
            simp only [List.cons_append, List.cons.injEq] at h
            obtain ⟨rfl, rfl, h⟩ := h
            unfold Spec.hexBytes at hv
            rw [hb, ha] at hv
            cases h'' : Spec.hexBytes ds with
            | none => rw [h''] at hv; simp at hv
            | some r =>
              rw [h''] at hv
              have hv' : some (UInt8.ofNat (16 * b + a) :: r) = some v := hv
              cases hv'
              have ih := asciiHexDecode_text t ht s none ds z r (by simpa using h) (by simp at he; omega) hz h'' hd
              dsimp only
              rw [parseByte_hexpair hb ha, ih]
              rfl

/-! ### ASCII85 -/

/-- No `~` in the text: it does not end before its end. -/
def NoTilde (s : Bytes) : Prop := ∀ c ∈ s, (c == 0x7E) = false

theorem a85Loop_strip (m : Overflow) (t : Bytes) : ∀ (s : Bytes) (ds : List Nat), NoTilde s →
    a85Loop m ds (s ++ t) = a85Loop m ds (Spec.strip s ++ t)
  | [], _, _ => rfl
  | c :: s, ds, h => by
    have hc := h c (by simp)
    have hs : NoTilde s := fun x hx => h x (by simp [hx])
    by_cases hw : isWhiteSpace c = true
    · rw [strip_ws hw, List.cons_append]
      conv => lhs; unfold a85Loop
      simp only [hc, Bool.false_and, Bool.false_eq_true, if_false, hw, if_true]
      exact a85Loop_strip m t s ds hs
    · have hw' : isWhiteSpace c = false := by simpa using hw
      rw [strip_not_ws hw', List.cons_append, List.cons_append]
      conv => lhs; unfold a85Loop
      conv => rhs; unfold a85Loop
      simp only [hc, Bool.false_and, Bool.false_eq_true, if_false, hw']
      rw [a85Loop_strip m t s [] hs, a85Loop_strip m t s _ hs]

theorem digit_char (d : Nat) (h : d < 85) :
    let c : Byte := UInt8.ofNat (33 + d)
    (c == 0x7E) = false ∧ isWhiteSpace c = false ∧ (c == 0x7A) = false ∧ (decide (c < 0x21) || decide (c > 0x75)) = false ∧
      c.toNat - 33 = d := by
  have key : ∀ d : Fin 85, let c : Byte := UInt8.ofNat (33 + d.val)
      (c == 0x7E) = false ∧ isWhiteSpace c = false ∧ (c == 0x7A) = false ∧ (decide (c < 0x21) || decide (c > 0x75)) = false ∧
      c.toNat - 33 = d.val := by decide +kernel
  exact key ⟨d, h⟩

theorem a85_digit (m : Overflow) (ds : List Nat) (d : Nat) (s : Bytes) (h : d < 85) (hl : ds.length < 4) :
    a85Loop m ds (UInt8.ofNat (33 + d) :: s) = a85Loop m (ds ++ [d]) s := by
  obtain ⟨h1, h2, h3, h4, h5⟩ := digit_char d h
  conv => lhs; unfold a85Loop
  simp only [h1, h2, h3, h4, h5, Bool.false_and, Bool.false_eq_true, if_false]
  rw [if_neg (by omega)]

theorem a85_digit5 (m : Overflow) (ds : List Nat) (d : Nat) (s : Bytes) (h : d < 85) (hl : ds.length = 4) :
    a85Loop m ds (UInt8.ofNat (33 + d) :: s) = (do
      let v ← intArith m (groupValue (ds ++ [d]))
      let r ← a85Loop m [] s
      return shiftByte v 24 :: shiftByte v 16 :: shiftByte v 8 :: shiftByte v 0 :: r) := by
  obtain ⟨h1, h2, h3, h4, h5⟩ := digit_char d h
  conv => lhs; unfold a85Loop
  simp only [h1, h2, h3, h4, h5, Bool.false_and, Bool.false_eq_true, if_false]
  rw [if_pos hl]

theorem digits85_five (v : Nat) : Spec.digits85 5 v =
    [v / 85 / 85 / 85 / 85 % 85, v / 85 / 85 / 85 % 85, v / 85 / 85 % 85, v / 85 % 85, v % 85] := by
  simp [Spec.digits85]

/-- What the decoder does with a complete group. -/
theorem a85_group (m : Overflow) (v : Nat) (s : Bytes) (hv : v < 2 ^ 32) :
    a85Loop m [] (Spec.chars85 (Spec.digits85 5 v) ++ s) = (do
      let w ← intArith m v
      let r ← a85Loop m [] s
      return shiftByte w 24 :: shiftByte w 16 :: shiftByte w 8 :: shiftByte w 0 :: r) := by
  rw [digits85_five]
  simp only [Spec.chars85, List.map_cons, List.map_nil, List.cons_append, List.nil_append]
  have hm : ∀ x : Nat, x % 85 < 85 := fun x => Nat.mod_lt _ (by decide)
  rw [a85_digit m _ _ _ (hm _) (by simp), a85_digit m _ _ _ (hm _) (by simp), a85_digit m _ _ _ (hm _) (by simp),
    a85_digit m _ _ _ (hm _) (by simp), a85_digit5 m _ _ _ (hm _) (by simp)]
  have : groupValue ([] ++ [v / 85 / 85 / 85 / 85 % 85] ++ [v / 85 / 85 / 85 % 85] ++ [v / 85 / 85 % 85] ++ [v / 85 % 85] ++ [v % 85])
      = v := by
    simp only [groupValue, List.nil_append, List.cons_append, List.foldl_cons, List.foldl_nil]
    omega
  rw [this]

theorem a85_z (m : Overflow) (s : Bytes) :
    a85Loop m [] (0x7A :: s) = (do let r ← a85Loop m [] s; return 0 :: 0 :: 0 :: 0 :: r) := by
  conv => lhs; unfold a85Loop
  rfl

/-- The values for which the `int` arithmetic gives the right bytes. -/
def FitsInt (m : Overflow) (v : Nat) : Prop := v < 2 ^ 32 ∧ (m = .wrap ∨ v < 2 ^ 31)

theorem intArith_fits {m : Overflow} {v : Nat} (h : FitsInt m v) :
    ∃ w, intArith m v = .ok w ∧ shiftByte w 24 = shiftByte v 24 ∧ shiftByte w 16 = shiftByte v 16 ∧
      shiftByte w 8 = shiftByte v 8 ∧ shiftByte w 0 = shiftByte v 0 := by
  obtain ⟨h1, h2⟩ := h
  have hmax : IntTy.i32.max = 2147483647 := by decide
  unfold intArith
  by_cases hv : (v : Int) ≤ IntTy.i32.max
  · exact ⟨v, by rw [if_pos hv], rfl, rfl, rfl, rfl⟩
  · rw [hmax] at hv
    rcases h2 with rfl | h2
    · rw [hmax, if_neg hv]
      have hc : IntTy.i32.cast v = (v : Int) - 4294967296 := by
        unfold IntTy.cast IntTy.i32
        simp only [Bool.true_and]
        rw [show (v : Int) % ((2 ^ 32 : Nat) : Int) = v from Int.emod_eq_of_lt (by omega) (by omega)]
        rw [if_pos (by simp; omega)]; rfl
      refine ⟨_, rfl, ?_⟩
      rw [hc]
      unfold shiftByte
      refine ⟨?_, ?_, ?_, ?_⟩ <;> congr 2 <;> simp <;> omega
    · omega

theorem intArith_ub {v : Nat} (h : 2 ^ 31 ≤ v) : intArith .strict v = .error .ub := by
  have hmax : IntTy.i32.max = 2147483647 := by decide
  unfold intArith
  rw [hmax, if_neg (by omega)]

theorem shiftByte_eq {v : Nat} {k : Nat} {b : Byte} (h : v / 2 ^ k % 256 = b.toNat) : shiftByte v k = b := by
  unfold shiftByte
  have : (((v : Int) / ((2 ^ k : Nat) : Int)) % 256).toNat = b.toNat := by
    rw [← h]
    have e : ((v : Int) / ((2 ^ k : Nat) : Int)) % 256 = ((v / 2 ^ k % 256 : Nat) : Int) := by push_cast; rfl
    rw [e, Int.toNat_natCast]
  rw [this]; simp

/-- The strict arithmetic is safe when the first byte of every group is below 0x80. -/
def SafeHeads (m : Overflow) (d : Bytes) : Prop := m = .wrap ∨ ∀ b ∈ Spec.groupHeads d, b.toNat < 128

theorem digits_bound (n : Nat) (hn : n < 2 ^ 32) :
    n / 85 / 85 / 85 / 85 % 85 * 52200625 + n / 85 / 85 / 85 % 85 * 614125 + n / 85 / 85 % 85 * 7225 +
      n / 85 % 85 * 85 + n % 85 = n ∧ n / 85 / 85 / 85 / 85 % 85 < 85 ∧ n / 85 / 85 / 85 % 85 < 85 ∧
      n / 85 / 85 % 85 < 85 ∧ n / 85 % 85 < 85 ∧ n % 85 < 85 := by
  obtain ⟨q1, h1⟩ : ∃ q, q = n / 85 := ⟨_, rfl⟩
  obtain ⟨q2, h2⟩ : ∃ q, q = q1 / 85 := ⟨_, rfl⟩
  obtain ⟨q3, h3⟩ : ∃ q, q = q2 / 85 := ⟨_, rfl⟩
  obtain ⟨q4, h4⟩ : ∃ q, q = q3 / 85 := ⟨_, rfl⟩
  rw [← h1, ← h2, ← h3, ← h4]
  have e1 : 85 * q1 + n % 85 = n := by omega
  have e2 : 85 * q2 + q1 % 85 = q1 := by omega
  have e3 : 85 * q3 + q2 % 85 = q2 := by omega
  have e4 : 85 * q4 + q3 % 85 = q3 := by omega
  have b1 : q1 < 50529028 := by omega
  have b2 : q2 < 594460 := by omega
  have b3 : q3 < 6994 := by omega
  have b4 : q4 < 85 := by omega
  rw [Nat.mod_eq_of_lt b4]
  have m0 := Nat.mod_lt n (by decide : 0 < 85)
  have m1 := Nat.mod_lt q1 (by decide : 0 < 85)
  have m2 := Nat.mod_lt q2 (by decide : 0 < 85)
  have m3 := Nat.mod_lt q3 (by decide : 0 < 85)
  refine ⟨?_, b4, m3, m2, m1, m0⟩
  generalize n % 85 = r0 at *
  generalize q1 % 85 = r1 at *
  generalize q2 % 85 = r2 at *
  generalize q3 % 85 = r3 at *
  clear h1 h2 h3 h4
  omega

theorem a85_partial1 (m : Overflow) (a : Byte) (h : m = .wrap ∨ a.toNat < 128) :
    a85Final m ((Spec.digits85 5 (Spec.group32 [a])).take 2) = .ok [a] := by
  have ha := a.toNat_lt
  have hg : Spec.group32 [a] = a.toNat * 16777216 := by simp [Spec.group32]
  rw [digits85_five]
  simp only [List.take_succ_cons, List.take_zero, a85Final]
  obtain ⟨n, hn⟩ : ∃ n : Nat, n = a.toNat * 16777216 := ⟨_, rfl⟩
  rw [hg, ← hn]
  obtain ⟨hsum, hb4, hb3, hb2, hb1, hb0⟩ := digits_bound n (by omega)
  generalize hx : n / 85 / 85 / 85 / 85 % 85 = x at hsum hb4
  clear hx
  generalize hy : n / 85 / 85 / 85 % 85 = y at hsum hb3
  clear hy
  obtain ⟨V, hV⟩ : ∃ V : Nat, V = x * 52200625 + y * 614125 + 621435 := ⟨_, rfl⟩
  have hle : n < V ∧ V ≤ n + 621435 := by omega
  have e : ((x : Int) * 85 * 85 * 85 * 85 + y * 85 * 85 * 85 + 85 * 85 * 85 + 85 * 85 + 85) =
    (V : Int) := by rw [hV]; push_cast; ring
  rw [e]
  obtain ⟨w, hw, h24, -⟩ := intArith_fits (m := m) (v := V)
    ⟨by omega, h.imp id (fun h => by omega)⟩
  rw [hw]
  clear hsum hb0 hb1 hb2 hb3 hb4 e hV
  show Except.ok [shiftByte w 24] = _
  rw [h24, shiftByte_eq (b := a)]
  omega

theorem a85_partial2 (m : Overflow) (a b : Byte) (h : m = .wrap ∨ a.toNat < 128) :
    a85Final m ((Spec.digits85 5 (Spec.group32 [a, b])).take 3) = .ok [a, b] := by
  have ha := a.toNat_lt
  have hb := b.toNat_lt
  have hg : Spec.group32 [a, b] = a.toNat * 16777216 + b.toNat * 65536 := by simp [Spec.group32]
  rw [digits85_five]
  simp only [List.take_succ_cons, List.take_zero, a85Final]
  obtain ⟨n, hn⟩ : ∃ n : Nat, n = a.toNat * 16777216 + b.toNat * 65536 := ⟨_, rfl⟩
  rw [hg, ← hn]
  obtain ⟨hsum, hb4, hb3, hb2, hb1, hb0⟩ := digits_bound n (by omega)
  generalize hx : n / 85 / 85 / 85 / 85 % 85 = x at hsum hb4
  clear hx
  generalize hy : n / 85 / 85 / 85 % 85 = y at hsum hb3
  clear hy
  generalize hz : n / 85 / 85 % 85 = z at hsum hb2
  clear hz
  obtain ⟨V, hV⟩ : ∃ V : Nat, V = x * 52200625 + y * 614125 + z * 7225 + 7310 := ⟨_, rfl⟩
  have hle : n < V ∧ V ≤ n + 7310 := by omega
  have e : ((x : Int) * 85 * 85 * 85 * 85 + y * 85 * 85 * 85 + z * 85 * 85 + 85 * 85 + 85) =
    (V : Int) := by rw [hV]; push_cast; ring
  rw [e]
  obtain ⟨w, hw, h24, h16, -⟩ := intArith_fits (m := m) (v := V)
    ⟨by omega, h.imp id (fun h => by omega)⟩
  rw [hw]
  clear hsum hb0 hb1 hb2 hb3 hb4 e hV
  show Except.ok [shiftByte w 24, shiftByte w 16] = _
  rw [h24, h16, shiftByte_eq (b := a) (by omega), shiftByte_eq (b := b) (by omega)]

theorem a85_partial3 (m : Overflow) (a b c : Byte) (h : m = .wrap ∨ a.toNat < 128) :
    a85Final m ((Spec.digits85 5 (Spec.group32 [a, b, c])).take 4) = .ok [a, b, c] := by
  have ha := a.toNat_lt
  have hb := b.toNat_lt
  have hc := c.toNat_lt
  have hg : Spec.group32 [a, b, c] = a.toNat * 16777216 + b.toNat * 65536 + c.toNat * 256 := by simp [Spec.group32]
  rw [digits85_five]
  simp only [List.take_succ_cons, List.take_zero, a85Final]
  obtain ⟨n, hn⟩ : ∃ n : Nat, n = a.toNat * 16777216 + b.toNat * 65536 + c.toNat * 256 := ⟨_, rfl⟩
  rw [hg, ← hn]
  obtain ⟨hsum, hb4, hb3, hb2, hb1, hb0⟩ := digits_bound n (by omega)
  generalize hx : n / 85 / 85 / 85 / 85 % 85 = x at hsum hb4
  clear hx
  generalize hy : n / 85 / 85 / 85 % 85 = y at hsum hb3
  clear hy
  generalize hz : n / 85 / 85 % 85 = z at hsum hb2
  clear hz
  generalize hu : n / 85 % 85 = u at hsum hb1
  clear hu
  obtain ⟨V, hV⟩ : ∃ V : Nat, V = x * 52200625 + y * 614125 + z * 7225 + u * 85 + 85 := ⟨_, rfl⟩
  have hle : n < V ∧ V ≤ n + 85 := by omega
  have e : ((x : Int) * 85 * 85 * 85 * 85 + y * 85 * 85 * 85 + z * 85 * 85 + u * 85 + 85) =
    (V : Int) := by rw [hV]; push_cast; ring
  rw [e]
  obtain ⟨w, hw, h24, h16, h8, -⟩ := intArith_fits (m := m) (v := V)
    ⟨by omega, h.imp id (fun h => by omega)⟩
  rw [hw]
  clear hsum hb0 hb1 hb2 hb3 hb4 e hV
  show Except.ok [shiftByte w 24, shiftByte w 16, shiftByte w 8] = _
  rw [h24, h16, h8, shiftByte_eq (b := a) (by omega), shiftByte_eq (b := b) (by omega), shiftByte_eq (b := c) (by omega)]

/-- The end of base-85 data: the end of the buffer, or `~>` with anything behind it. -/
def Ends85 (t : Bytes) : Prop := t = [] ∨ ∃ rest, t = 0x7E :: 0x3E :: rest

theorem a85_ends (m : Overflow) {t : Bytes} (h : Ends85 t) (ds : List Nat) : a85Loop m ds t = a85Final m ds := by
  rcases h with rfl | ⟨rest, rfl⟩
  · unfold a85Loop; rfl
  · unfold a85Loop; simp

theorem a85_short (m : Overflow) {t : Bytes} (h : Ends85 t) (ds : List Nat) (hd : ∀ d ∈ ds, d < 85) (hl : ds.length ≤ 4) :
    a85Loop m [] (Spec.chars85 ds ++ t) = a85Final m ds := by
  have key : ∀ (es ds : List Nat), (∀ d ∈ ds, d < 85) → es.length + ds.length ≤ 4 →
      a85Loop m es (Spec.chars85 ds ++ t) = a85Final m (es ++ ds) := by
    intro es ds
    induction ds generalizing es with
    | nil => intro _ _; simp [Spec.chars85]; exact a85_ends m h es
    | cons d ds ih =>
      intro hd hl
      simp only [Spec.chars85, List.map_cons, List.cons_append]
      rw [a85_digit m es d _ (hd d (by simp)) (by simp at hl; omega)]
      have := ih (es ++ [d]) (fun x hx => hd x (by simp [hx])) (by simp at *; omega)
      simp only [Spec.chars85] at this
      rw [this]; simp
  simpa using key [] ds hd (by simpa using hl)

theorem take_digits_lt (v k : Nat) : ∀ d ∈ (Spec.digits85 5 v).take k, d < 85 := by
  intro d hd
  have := List.mem_of_mem_take hd
  rw [digits85_five] at this
  simp at this
  omega

theorem group32_lt (a b c d : Byte) : Spec.group32 [a, b, c, d] < 2 ^ 32 := by
  have := a.toNat_lt; have := b.toNat_lt; have := c.toNat_lt; have := d.toNat_lt
  simp [Spec.group32]; omega

theorem base85_decodes (m : Overflow) {t : Bytes} (ht : Ends85 t) (d : Bytes) (h : SafeHeads m d) :
    a85Loop m [] (Spec.base85 d ++ t) = .ok d := by
  induction d using Spec.base85.induct with
  | case1 a b c d rest ih =>
    have hh : SafeHeads m rest := h.imp id (fun h x hx => h x (by simp [Spec.groupHeads, hx]))
    have ha : m = .wrap ∨ a.toNat < 128 := h.imp id (fun h => h a (by simp [Spec.groupHeads]))
    have ih := ih hh
    unfold Spec.base85
    rw [List.append_assoc]
    have := a.toNat_lt; have := b.toNat_lt; have := c.toNat_lt; have := d.toNat_lt
    have hg : Spec.group32 [a, b, c, d] = a.toNat * 16777216 + b.toNat * 65536 + c.toNat * 256 + d.toNat := by
      simp [Spec.group32]
    split
    · rename_i h0
      rw [List.singleton_append, a85_z, ih]
      rw [hg] at h0
      have e : ∀ x : Byte, x.toNat = 0 → x = 0 := fun x hx => UInt8.toNat_inj.1 (by simpa using hx)
      rw [e a (by omega), e b (by omega), e c (by omega), e d (by omega)]
      rfl
    · rw [a85_group m _ _ (group32_lt a b c d), ih]
      obtain ⟨w, hw, h1, h2, h3, h4⟩ := intArith_fits (m := m) (v := Spec.group32 [a, b, c, d])
        ⟨group32_lt a b c d, ha.imp id (fun h => by rw [hg]; omega)⟩
      rw [hw]
      show Except.ok (shiftByte w 24 :: shiftByte w 16 :: shiftByte w 8 :: shiftByte w 0 :: rest) = _
      rw [h1, h2, h3, h4, hg, shiftByte_eq (b := a) (by omega), shiftByte_eq (b := b) (by omega),
        shiftByte_eq (b := c) (by omega), shiftByte_eq (b := d) (by omega)]
  | case2 => unfold Spec.base85; rw [List.nil_append, a85_ends m ht]; rfl
  | case3 g h1 h2 =>
    match g, h1, h2 with
    | [], _, h2 => exact absurd rfl h2
    | [a], _, _ =>
      have ha : m = .wrap ∨ a.toNat < 128 := h.imp id (fun h => h a (by simp [Spec.groupHeads]))
      simp only [Spec.base85]
      rw [a85_short m ht _ (take_digits_lt _ _) (by simp)]
      exact a85_partial1 m a ha
    | [a, b], _, _ =>
      have ha : m = .wrap ∨ a.toNat < 128 := h.imp id (fun h => h a (by simp [Spec.groupHeads]))
      simp only [Spec.base85]
      rw [a85_short m ht _ (take_digits_lt _ _) (by simp)]
      exact a85_partial2 m a b ha
    | [a, b, c], _, _ =>
      have ha : m = .wrap ∨ a.toNat < 128 := h.imp id (fun h => h a (by simp [Spec.groupHeads]))
      simp only [Spec.base85]
      rw [a85_short m ht _ (take_digits_lt _ _) (by simp)]
      exact a85_partial3 m a b c ha
    | a :: b :: c :: d :: r, h1, _ => exact absurd rfl (h1 a b c d r)

theorem base85_noTilde (d : Bytes) : NoTilde (Spec.base85 d) := by
  have hch : ∀ ds : List Nat, (∀ x ∈ ds, x < 85) → NoTilde (Spec.chars85 ds) := by
    intro ds hds c hc
    simp only [Spec.chars85, List.mem_map] at hc
    obtain ⟨x, hx, rfl⟩ := hc
    exact (digit_char x (hds x hx)).1
  have hd5 : ∀ v k, NoTilde (Spec.chars85 ((Spec.digits85 5 v).take k)) := fun v k => hch _ (take_digits_lt v k)
  induction d using Spec.base85.induct with
  | case1 a b c d rest ih =>
    unfold Spec.base85
    intro x hx
    rcases List.mem_append.1 hx with hx | hx
    · split at hx
      · simp at hx; subst hx; decide
      · have := hd5 (Spec.group32 [a, b, c, d]) 5
        rw [List.take_of_length_le (by rw [digits85_five]; simp)] at this
        exact this x hx
    · exact ih x hx
  | case2 => intro x hx; simp [Spec.base85] at hx
  | case3 g h1 h2 =>
    have e : Spec.base85 g = Spec.chars85 ((Spec.digits85 5 (Spec.group32 g)).take (g.length + 1)) := by
      rw [Spec.base85.eq_def]
      split
      · exact absurd rfl (h1 _ _ _ _ _)
      · exact absurd rfl h2
      · rfl
    rw [e]; exact hd5 _ _

theorem noTilde_of_strip {s : Bytes} (h : NoTilde (Spec.strip s)) : NoTilde s := by
  intro c hc
  by_cases hw : isWhiteSpace c = true
  · have key : ∀ c : Byte, isWhiteSpace c = true → (c == 0x7E) = false := by apply forall_byte; decide +kernel
    exact key c hw
  · refine h c ?_
    unfold Spec.strip
    rw [List.mem_filter]
    refine ⟨hc, ?_⟩
    rw [isWhiteSpace_iff_spec] at hw
    simp at hw ⊢; exact hw

/-- With strict arithmetic a group whose first byte is 0x80 or more is undefined behaviour. -/
theorem base85_ub {t : Bytes} (ht : Ends85 t) (d : Bytes) (h : ∃ b ∈ Spec.groupHeads d, 128 ≤ b.toNat) :
    a85Loop .strict [] (Spec.base85 d ++ t) = .error .ub := by
  induction d using Spec.base85.induct with
  | case1 a b c d rest ih =>
    have := a.toNat_lt; have := b.toNat_lt; have := c.toNat_lt; have := d.toNat_lt
    have hg : Spec.group32 [a, b, c, d] = a.toNat * 16777216 + b.toNat * 65536 + c.toNat * 256 + d.toNat := by
      simp [Spec.group32]
    unfold Spec.base85
    rw [List.append_assoc]
    by_cases ha : 128 ≤ a.toNat
    · rw [if_neg (by rw [hg]; omega), a85_group _ _ _ (group32_lt a b c d), intArith_ub (by rw [hg]; omega)]
      rfl
    · have ih := ih (by
        obtain ⟨x, hx, hx'⟩ := h
        simp only [Spec.groupHeads, List.mem_cons] at hx
        rcases hx with rfl | hx
        · exact absurd hx' ha
        · exact ⟨x, hx, hx'⟩)
      split
      · rw [List.singleton_append, a85_z, ih]; rfl
      · rw [a85_group _ _ _ (group32_lt a b c d), ih]
        obtain ⟨w, hw, -⟩ := intArith_fits (m := .strict) (v := Spec.group32 [a, b, c, d])
          ⟨group32_lt a b c d, Or.inr (by rw [hg]; omega)⟩
        rw [hw]; rfl
  | case2 => obtain ⟨x, hx, _⟩ := h; simp [Spec.groupHeads] at hx
  | case3 g h1 h2 =>
    match g, h1, h2 with
    | [], _, h2 => exact absurd rfl h2
    | [a], _, _ =>
      have ha : 128 ≤ a.toNat := by obtain ⟨x, hx, hx'⟩ := h; simp [Spec.groupHeads] at hx; subst hx; exact hx'
      have := a.toNat_lt
      simp only [Spec.base85]
      rw [a85_short _ ht _ (take_digits_lt _ _) (by simp), digits85_five]
      simp only [List.length_cons, List.length_nil, List.take_succ_cons, List.take_zero, a85Final]
      have hg : Spec.group32 [a] = a.toNat * 16777216 := by simp [Spec.group32]
      rw [hg]
      obtain ⟨n, hn⟩ : ∃ n : Nat, n = a.toNat * 16777216 := ⟨_, rfl⟩
      rw [← hn]
      obtain ⟨hsum, hb4, hb3, hb2, hb1, hb0⟩ := digits_bound n (by omega)
      generalize hx : n / 85 / 85 / 85 / 85 % 85 = x at hsum hb4
      clear hx
      generalize hy : n / 85 / 85 / 85 % 85 = y at hsum hb3
      clear hy
      have e : ((x : Int) * 85 * 85 * 85 * 85 + y * 85 * 85 * 85 + 85 * 85 * 85 + 85 * 85 + 85) =
        ((x * 52200625 + y * 614125 + 621435 : Nat) : Int) := by push_cast; ring
      rw [e, intArith_ub (by omega)]; rfl
    | [a, b], _, _ =>
      have ha : 128 ≤ a.toNat := by obtain ⟨x, hx, hx'⟩ := h; simp [Spec.groupHeads] at hx; subst hx; exact hx'
      have := a.toNat_lt; have := b.toNat_lt
      simp only [Spec.base85]
      rw [a85_short _ ht _ (take_digits_lt _ _) (by simp), digits85_five]
      simp only [List.length_cons, List.length_nil, List.take_succ_cons, List.take_zero, a85Final]
      have hg : Spec.group32 [a, b] = a.toNat * 16777216 + b.toNat * 65536 := by simp [Spec.group32]
      rw [hg]
      obtain ⟨n, hn⟩ : ∃ n : Nat, n = a.toNat * 16777216 + b.toNat * 65536 := ⟨_, rfl⟩
      rw [← hn]
      obtain ⟨hsum, hb4, hb3, hb2, hb1, hb0⟩ := digits_bound n (by omega)
      generalize hx : n / 85 / 85 / 85 / 85 % 85 = x at hsum hb4
      clear hx
      generalize hy : n / 85 / 85 / 85 % 85 = y at hsum hb3
      clear hy
      generalize hz : n / 85 / 85 % 85 = z at hsum hb2
      clear hz
      have e : ((x : Int) * 85 * 85 * 85 * 85 + y * 85 * 85 * 85 + z * 85 * 85 + 85 * 85 + 85) =
        ((x * 52200625 + y * 614125 + z * 7225 + 7310 : Nat) : Int) := by push_cast; ring
      rw [e, intArith_ub (by omega)]; rfl
    | [a, b, c], _, _ =>
      have ha : 128 ≤ a.toNat := by obtain ⟨x, hx, hx'⟩ := h; simp [Spec.groupHeads] at hx; subst hx; exact hx'
      have := a.toNat_lt; have := b.toNat_lt; have := c.toNat_lt
      simp only [Spec.base85]
      rw [a85_short _ ht _ (take_digits_lt _ _) (by simp), digits85_five]
      simp only [List.length_cons, List.length_nil, List.take_succ_cons, List.take_zero, a85Final]
      have hg : Spec.group32 [a, b, c] = a.toNat * 16777216 + b.toNat * 65536 + c.toNat * 256 := by simp [Spec.group32]
      rw [hg]
      obtain ⟨n, hn⟩ : ∃ n : Nat, n = a.toNat * 16777216 + b.toNat * 65536 + c.toNat * 256 := ⟨_, rfl⟩
      rw [← hn]
      obtain ⟨hsum, hb4, hb3, hb2, hb1, hb0⟩ := digits_bound n (by omega)
      generalize hx : n / 85 / 85 / 85 / 85 % 85 = x at hsum hb4
      clear hx
      generalize hy : n / 85 / 85 / 85 % 85 = y at hsum hb3
      clear hy
      generalize hz : n / 85 / 85 % 85 = z at hsum hb2
      clear hz
      generalize hu : n / 85 % 85 = u at hsum hb1
      clear hu
      have e : ((x : Int) * 85 * 85 * 85 * 85 + y * 85 * 85 * 85 + z * 85 * 85 + u * 85 + 85) =
        ((x * 52200625 + y * 614125 + z * 7225 + u * 85 + 85 : Nat) : Int) := by push_cast; ring
      rw [e, intArith_ub (by omega)]; rfl
    | a :: b :: c :: d :: r, h1, _ => exact absurd rfl (h1 a b c d r)

end VPdf
