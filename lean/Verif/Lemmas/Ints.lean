import Verif.Spec.Ints
import Mathlib.Tactic.Ring
import Mathlib.Tactic.Linarith
/-
  Integer conversion and arithmetic lemmas.
-/
namespace VPdf

theorem two_pow_pos (n : Nat) : 0 < 2 ^ n := Nat.pow_pos (by decide)

theorem pow_pred {n : Nat} (h : 1 ≤ n) : 2 ^ n = 2 * 2 ^ (n - 1) := by
  obtain ⟨k, rfl⟩ : ∃ k, n = k + 1 := ⟨n - 1, by omega⟩
  simp [Nat.pow_succ, Nat.mul_comm]

theorem fits_iff (t : IntTy) (x : Int) : Spec.Fits t x ↔ t.lowest ≤ x ∧ x ≤ t.max := by
  obtain ⟨s, b⟩ := t
  cases s <;> simp [Spec.Fits, IntTy.lowest, IntTy.max] <;> omega

theorem cast_of_fits (t : IntTy) (hb : 1 ≤ t.bits) (x : Int) (h : Spec.Fits t x) : t.cast x = x := by
  obtain ⟨s, b⟩ := t
  have hp := pow_pred hb
  have hq := two_pow_pos (b - 1)
  simp only at hp hb
  cases s
  · simp only [Spec.Fits] at h
    simp only [IntTy.cast, Bool.false_and]
    have : (2 : Int) ^ b = ((2 ^ b : Nat) : Int) := by push_cast; rfl
    rw [Int.emod_eq_of_lt h.1 (by omega)]
    simp
  · simp only [Spec.Fits] at h
    simp only [IntTy.cast, Bool.true_and]
    have e : (2 : Int) ^ (b - 1) = ((2 ^ (b - 1) : Nat) : Int) := by push_cast; rfl
    rw [e] at h
    generalize 2 ^ (b - 1) = k at *
    rw [hp]
    by_cases hx : 0 ≤ x
    · have : x % ((2 * k : Nat) : Int) = x := Int.emod_eq_of_lt hx (by omega)
      rw [this]
      have : ¬ ((k : Int) ≤ x) := by omega
      simp [this]
    · have : x % ((2 * k : Nat) : Int) = x + (2 * k : Nat) := by
        rw [← Int.add_emod_right]
        exact Int.emod_eq_of_lt (by omega) (by omega)
      rw [this]
      have hk : (k : Int) ≤ x + (2 * k : Nat) := by omega
      rw [decide_eq_true hk, if_pos rfl]
      omega

theorem fits_toUnsigned {t : IntTy} (hb : 1 ≤ t.bits) {x : Int} (h : Spec.Fits t x) (h0 : 0 ≤ x) :
    Spec.Fits t.toUnsigned x := by
  obtain ⟨s, b⟩ := t
  have hp := pow_pred hb
  simp only at hp hb
  have e : (2 : Int) ^ (b - 1) = ((2 ^ (b - 1) : Nat) : Int) := by push_cast; rfl
  have e' : (2 : Int) ^ b = ((2 ^ b : Nat) : Int) := by push_cast; rfl
  cases s <;> simp only [Spec.Fits, IntTy.toUnsigned] at * <;> omega

instance (t : IntTy) (x : Int) : Decidable (Spec.Fits t x) := decidable_of_iff _ (fits_iff t x).symm

/-- What the range check decides. -/
theorem isInRange_iff (r v : IntTy) (hr : 1 ≤ r.bits) (hv : 1 ≤ v.bits) (x : Int) (h : Spec.Fits v x) :
    isInRange r v x = true ↔ Spec.Fits r x ∧ ¬ (r.signed = true ∧ v.signed = false ∧ x = r.max) := by
  unfold isInRange
  by_cases hs : r.signed = v.signed
  · rw [if_pos hs]
    unfold isInRangeSame
    by_cases he : r = v
    · subst he
      simp only [if_true, true_iff]
      refine ⟨h, ?_⟩
      rintro ⟨a, b, _⟩; rw [a] at b; cases b
    · rw [if_neg he, fits_iff]
      simp only [Bool.and_eq_true, decide_eq_true_eq]
      constructor
      · intro hh
        refine ⟨hh, ?_⟩
        rintro ⟨a, b, _⟩; rw [hs, b] at a; cases a
      · exact fun hh => hh.1
  · rw [if_neg hs]
    cases hvs : v.signed with
    | true =>
      have hrs : r.signed = false := by
        cases hh : r.signed with
        | false => rfl
        | true => rw [hh, hvs] at hs; exact absurd rfl hs
      simp only [if_true]
      by_cases h0 : x < 0
      · simp only [if_pos h0]
        constructor
        · intro c; cases c
        · rintro ⟨a, _⟩; rw [fits_iff] at a
          simp [IntTy.lowest, hrs] at a; omega
      · rw [if_neg h0]
        have hfu := fits_toUnsigned hv h (by omega)
        rw [cast_of_fits v.toUnsigned hv x hfu]
        unfold isInRangeSame
        by_cases he : r = v.toUnsigned
        · rw [if_pos he]
          simp only [true_iff]
          refine ⟨he ▸ hfu, ?_⟩
          rintro ⟨a, _⟩; rw [hrs] at a; cases a
        · rw [if_neg he, fits_iff]
          simp only [Bool.and_eq_true, decide_eq_true_eq]
          constructor
          · intro hh
            refine ⟨hh, ?_⟩
            rintro ⟨a, _⟩; rw [hrs] at a; cases a
          · exact fun hh => hh.1
    | false =>
      have hrs : r.signed = true := by
        cases hh : r.signed with
        | true => rfl
        | false => rw [hh, hvs] at hs; exact absurd rfl hs
      have hx0 : 0 ≤ x := by
        rw [fits_iff] at h; simp [IntTy.lowest, hvs] at h; omega
      have hm : 0 ≤ r.max ∧ r.lowest ≤ 0 := by
        have := two_pow_pos (r.bits - 1)
        simp only [IntTy.max, IntTy.lowest, hrs, if_true]; omega
      have hmf : Spec.Fits r r.max := by rw [fits_iff]; omega
      rw [cast_of_fits r.toUnsigned hr _ (fits_toUnsigned hr hmf hm.1)]
      rw [fits_iff]
      simp only [Bool.false_eq_true, if_false, decide_eq_true_eq, hrs, true_and]
      omega

theorem Spec.Builtin.pos {t : IntTy} (h : Spec.Builtin t) : 1 ≤ t.bits := by
  unfold Spec.Builtin at h; omega

theorem fits_unsigned {t : IntTy} (ht : t.signed = false) {x : Int} :
    Spec.Fits t x ↔ 0 ≤ x ∧ x < ((2 ^ t.bits : Nat) : Int) := by
  unfold Spec.Fits; rw [ht]; push_cast; rfl

theorem fits_nonneg {t : IntTy} {x : Int} (h0 : 0 ≤ x) :
    Spec.Fits t x ↔ x < ((2 ^ (if t.signed then t.bits - 1 else t.bits) : Nat) : Int) := by
  unfold Spec.Fits
  cases t.signed <;> simp only [Bool.false_eq_true, if_true, if_false] <;> push_cast
  · exact ⟨fun h => h.2, fun h => ⟨h0, h⟩⟩
  · refine ⟨fun h => h.2, fun h => ⟨?_, h⟩⟩
    have : (0:Int) < 2 ^ (t.bits - 1) := Int.pow_pos (by decide)
    omega

/-- Non-negative values keep fitting when the capacity does not shrink. -/
theorem fits_mono {t u : IntTy} {x : Int} (h0 : 0 ≤ x) (h : Spec.Fits t x)
    (hle : (if t.signed then t.bits - 1 else t.bits) ≤ (if u.signed then u.bits - 1 else u.bits)) : Spec.Fits u x := by
  rw [fits_nonneg h0] at *
  have := Nat.pow_le_pow_right (n := 2) (by decide) hle
  omega

theorem common_comm (a b : IntTy) : IntTy.common a b = IntTy.common b a := by
  unfold IntTy.common
  generalize a.promote = a; generalize b.promote = b
  obtain ⟨s, n⟩ := a; obtain ⟨t, m⟩ := b
  cases s <;> cases t <;> simp <;> (repeat' split) <;> (first | rfl | omega | (simp; omega))

theorem common_cap (a b : IntTy) (ha : Spec.Builtin a) (hb : Spec.Builtin b) :
    (if a.signed then a.bits - 1 else a.bits) ≤
      (if (IntTy.common a b).signed then (IntTy.common a b).bits - 1 else (IntTy.common a b).bits) := by
  obtain ⟨s, n⟩ := a; obtain ⟨t, m⟩ := b
  unfold Spec.Builtin at ha hb
  simp only at ha hb
  rcases ha with rfl | rfl | rfl | rfl <;> rcases hb with rfl | rfl | rfl | rfl <;> cases s <;> cases t <;> decide

theorem common_bits_pos (a b : IntTy) : 32 ≤ (IntTy.common a b).bits := by
  have hp : ∀ t : IntTy, 32 ≤ t.promote.bits := by
    intro t; unfold IntTy.promote; split
    · decide
    · omega
  have := hp a; have := hp b
  unfold IntTy.common
  dsimp only
  repeat' split
  all_goals omega

theorem cast_common {a b : IntTy} (ha : Spec.Builtin a) (hb : Spec.Builtin b) {x : Int} (h0 : 0 ≤ x)
    (h : Spec.Fits a x) : (IntTy.common a b).cast x = x :=
  cast_of_fits _ (by have := common_bits_pos a b; omega) _ (fits_mono h0 h (common_cap a b ha hb))

theorem cppLt_nonneg {a b : IntTy} (ha : Spec.Builtin a) (hb : Spec.Builtin b) {x y : Int} (hx : 0 ≤ x) (hy : 0 ≤ y)
    (fx : Spec.Fits a x) (fy : Spec.Fits b y) : cppLt a b x y = decide (x < y) := by
  unfold cppLt
  dsimp only
  rw [cast_common ha hb hx fx, common_comm, cast_common hb ha hy fy]

theorem cast_unsigned {t : IntTy} (h : t.signed = false) (x : Int) : t.cast x = x % ((2 ^ t.bits : Nat) : Int) := by
  unfold IntTy.cast; simp [h]

theorem cast_fits_unsigned {t : IntTy} (h : t.signed = false) (x : Int) : Spec.Fits t (t.cast x) := by
  rw [fits_unsigned h, cast_unsigned h]
  have := two_pow_pos t.bits
  exact ⟨Int.emod_nonneg _ (by omega), Int.emod_lt_of_pos _ (by omega)⟩

/-- The sum is computed modulo a power of two that is at least the range of the addend. -/
theorem safeAdd_core (n m M : Int) (hm : m < M) (hn : 0 ≤ n) (hm0 : 0 ≤ m)
    (h : ¬ (n + m) % M < n) : (n + m) % M = n + m := by
  have hM : 0 < M := by omega
  have h1 := Int.emod_lt_of_pos (n + m) hM
  have h2 := Int.emod_nonneg (n + m) (by omega : M ≠ 0)
  have h3 := Int.emod_add_mul_ediv (n + m) M
  have h4 : 0 ≤ (n + m) / M := Int.ediv_nonneg (by omega) (by omega)
  by_cases h5 : (n + m) / M = 0
  · rw [h5] at h3; omega
  · have h6 : 1 ≤ (n + m) / M := by omega
    have : M * 1 ≤ M * ((n + m) / M) := Int.mul_le_mul_of_nonneg_left h6 (by omega)
    omega

theorem emod_emod_pow (x : Int) (a b : Nat) :
    x % ((2 ^ a : Nat) : Int) % ((2 ^ b : Nat) : Int) = x % ((2 ^ min a b : Nat) : Int) := by
  rcases Nat.le_total b a with h | h
  · rw [Nat.min_eq_right h]
    exact Int.emod_emod_of_dvd x (Int.natCast_dvd_natCast.2 (Nat.pow_dvd_pow 2 h))
  · rw [Nat.min_eq_left h]
    have h1 := Int.emod_nonneg x (b := ((2 ^ a : Nat) : Int)) (by have := two_pow_pos a; omega)
    have h2 := Int.emod_lt_of_pos x (b := ((2 ^ a : Nat) : Int)) (by have := two_pow_pos a; omega)
    have := Nat.pow_le_pow_right (n := 2) (by decide) h
    exact Int.emod_eq_of_lt h1 (by omega)

/-- The value computed by the addition before it is checked: exact modulo a power of two `2^k`, where `k` is not
less than the capacity of the addend and of the destination. -/
theorem safeAdd_sum (r a b : IntTy) (ha : Spec.Builtin a) (hb : Spec.Builtin b)
    (hru : r.signed = false) (hau : a.signed = false)
    (hc : b.signed = false ∨ (32 ≤ a.bits ∧ b.bits ≤ a.bits)) (hbr : b.bits ≤ r.bits)
    (n m : Int) (hn : Spec.Fits a n) (hm : Spec.Fits b m) (hm0 : 0 ≤ m) :
    ∃ k s, cppAdd a b n m = .ok s ∧ r.cast s = (n + m) % ((2 ^ k : Nat) : Int) ∧ b.bits ≤ k ∧
      (r.bits ≤ a.bits → r.bits ≤ k) ∧ k ≤ r.bits := by
  have hn0 : 0 ≤ n := ((fits_unsigned hau).1 hn).1
  unfold cppAdd
  dsimp only
  rw [cast_common ha hb hn0 hn, common_comm, cast_common hb ha hm0 hm, common_comm]
  unfold arith
  cases hs : (IntTy.common a b).signed with
  | false =>
    refine ⟨min (IntTy.common a b).bits r.bits, _, by rw [if_neg (by simp)], ?_, ?_, ?_, by omega⟩
    · rw [cast_unsigned hru, cast_unsigned hs, emod_emod_pow]
    · have h1 := common_cap b a hb ha
      rw [common_comm, hs] at h1
      have h2 := common_cap a b ha hb
      rw [hs, hau] at h2
      simp only [Bool.false_eq_true, if_false] at h1 h2
      cases hbs : b.signed <;> rw [hbs] at h1 hc <;> simp at h1 hc <;> omega
    · have h2 := common_cap a b ha hb
      rw [hs, hau] at h2
      simp only [Bool.false_eq_true, if_false] at h2
      omega
  | true =>
    have hbb : b.signed = false ∧ a.bits ≤ 16 ∧ b.bits ≤ 16 := by
      obtain ⟨s, x⟩ := a; obtain ⟨t, y⟩ := b
      unfold Spec.Builtin at ha hb
      simp only at ha hb hau hc
      subst hau
      rcases ha with rfl | rfl | rfl | rfl <;> rcases hb with rfl | rfl | rfl | rfl <;> cases t <;>
        revert hs hc <;> decide
    have h1 := (fits_unsigned hau).1 hn
    have h2 := (fits_unsigned hbb.1).1 hm
    have e1 : 2 ^ a.bits ≤ 2 ^ 16 := Nat.pow_le_pow_right (by decide) hbb.2.1
    have e2 : 2 ^ b.bits ≤ 2 ^ 16 := Nat.pow_le_pow_right (by decide) hbb.2.2
    have hf : Spec.Fits (IntTy.common a b) (n + m) := by
      refine fits_mono (t := IntTy.i32) (by omega) ?_ ?_
      · rw [fits_nonneg (by omega)]; simp [IntTy.i32]; omega
      · rw [hs]; simp [IntTy.i32]; have := common_bits_pos a b; omega
    refine ⟨r.bits, _, by rw [if_pos rfl, if_pos ((fits_iff _ _).1 hf)], by rw [cast_unsigned hru], hbr, by omega, by omega⟩

theorem msbAux_spec : ∀ (f v : Nat), v < 2 ^ f → v < 2 ^ msbAux f v ∧ (0 < v → 2 ^ (msbAux f v - 1) ≤ v ∧ 1 ≤ msbAux f v) ∧
    msbAux f v ≤ f
  | 0, v, h => by simp [msbAux] at *; omega
  | f + 1, v, h => by
    unfold msbAux
    by_cases h0 : (v : Int) > 0
    · rw [if_pos h0]
      have hd : (v : Int) / 2 = ((v / 2 : Nat) : Int) := by omega
      rw [hd]
      have hlt : v / 2 < 2 ^ f := by rw [Nat.pow_succ] at h; omega
      obtain ⟨h1, h2, h3⟩ := msbAux_spec f (v / 2) hlt
      refine ⟨?_, ?_, by omega⟩
      · rw [Nat.pow_succ]; omega
      · intro _
        refine ⟨?_, by omega⟩
        rw [Nat.add_sub_cancel]
        by_cases hz : v / 2 = 0
        · have : msbAux f ((v / 2 : Nat) : Int) = 0 := by
            cases f with
            | zero => rfl
            | succ f => unfold msbAux; rw [hz]; simp
          rw [this]; simp; omega
        · have h4 := h2 (by omega)
          obtain ⟨k, hk⟩ : ∃ k, msbAux f ((v / 2 : Nat) : Int) = k + 1 := ⟨_, (Nat.sub_add_cancel h4.2).symm⟩
          rw [hk] at h4 ⊢
          rw [Nat.add_sub_cancel] at h4
          rw [Nat.pow_succ]; omega
    · rw [if_neg h0]
      have : v = 0 := by omega
      subst this
      simp

/-- `MostSignificantBit` is the bit length. -/
theorem msb_spec (v : Nat) (h : v < 2 ^ 64) :
    v < 2 ^ mostSignificantBit v ∧ (0 < v → 2 ^ (mostSignificantBit v - 1) ≤ v ∧ 1 ≤ mostSignificantBit v) ∧
      mostSignificantBit v ≤ 64 := msbAux_spec 64 v h

theorem pow256 (w : Nat) : 256 ^ w = 2 ^ (w * 8) := by
  rw [show (256 : Nat) = 2 ^ 8 from rfl, ← Nat.pow_mul, Nat.mul_comm]

theorem bigEndian_acc : ∀ (s : Bytes) (a : Nat),
    s.foldl (fun a b => a * 256 + b.toNat) a = a * 256 ^ s.length + Spec.bigEndian s
  | [], a => by simp [Spec.bigEndian]
  | b :: s, a => by
    unfold Spec.bigEndian
    simp only [List.foldl_cons, List.length_cons]
    rw [bigEndian_acc s, bigEndian_acc s (0 * 256 + b.toNat), Nat.pow_succ]
    ring

theorem bigEndian_cons (b : Byte) (s : Bytes) : Spec.bigEndian (b :: s) = b.toNat * 256 ^ s.length + Spec.bigEndian s := by
  conv => lhs; unfold Spec.bigEndian
  rw [List.foldl_cons, bigEndian_acc]; simp

theorem bigEndian_lt : ∀ s : Bytes, Spec.bigEndian s < 256 ^ s.length
  | [] => by simp [Spec.bigEndian]
  | b :: s => by
    rw [bigEndian_cons]
    have := bigEndian_lt s
    have hb := b.toNat_lt
    rw [List.length_cons, Nat.pow_succ]
    have : (b.toNat + 1) * 256 ^ s.length ≤ 256 * 256 ^ s.length := Nat.mul_le_mul_right _ (by omega)
    rw [Nat.add_mul] at this; omega

theorem writeBytesBE_spec (value : Nat) : ∀ i ≤ 8, ∃ bs, writeBytesBE i value = .ok bs ∧ bs.length = i ∧
    Spec.bigEndian bs = value % 256 ^ i
  | 0, _ => ⟨[], rfl, rfl, by simp [Spec.bigEndian, Nat.mod_one]⟩
  | i + 1, h => by
    obtain ⟨bs, h1, h2, h3⟩ := writeBytesBE_spec value i (by omega)
    refine ⟨UInt8.ofNat (value >>> (i * 8) &&& 255) :: bs, ?_, by simp [h2], ?_⟩
    · unfold writeBytesBE
      rw [if_neg (by omega)]
      rw [h1]; rfl
    · rw [bigEndian_cons, h2, h3]
      have e : (UInt8.ofNat (value >>> (i * 8) &&& 255)).toNat = value / 256 ^ i % 256 := by
        rw [show (255 : Nat) = 2 ^ 8 - 1 from rfl, Nat.and_two_pow_sub_one_eq_mod, Nat.shiftRight_eq_div_pow, ← pow256]
        simp
      rw [e]
      rw [Nat.pow_succ, Nat.mod_mul, Nat.mul_comm]
      ring

theorem readField_spec : ∀ (bs : Bytes) (acc : Nat) (rest : Bytes), acc * 256 ^ bs.length + Spec.bigEndian bs < 2 ^ 64 →
    acc < 2 ^ 63 ∨ bs = [] →
    readField bs.length (IntTy.i64.cast acc) (bs ++ rest) = .ok (IntTy.i64.cast (acc * 256 ^ bs.length + Spec.bigEndian bs : Nat), rest)
  | [], acc, rest, _, _ => by simp [readField, Spec.bigEndian]
  | b :: bs, acc, rest, h, hacc => by
    have hacc : acc < 2 ^ 63 := by rcases hacc with h | h; exact h; cases h
    simp only [List.length_cons, List.cons_append, readField]
    have hc : IntTy.i64.cast (acc : Int) = acc := cast_of_fits _ (by decide) _ (by rw [fits_nonneg (by omega)]; simp [IntTy.i64]; omega)
    rw [hc]
    rw [bigEndian_cons, List.length_cons, Nat.pow_succ] at h
    have hp : 1 ≤ 256 ^ bs.length := Nat.pow_pos (by decide)
    have h1 : acc * 256 + b.toNat < 2 ^ 64 := by
      have : (acc * 256 + b.toNat) * 1 ≤ (acc * 256 + b.toNat) * 256 ^ bs.length := Nat.mul_le_mul_left _ hp
      have e : (acc * 256 + b.toNat) * 256 ^ bs.length = acc * (256 ^ bs.length * 256) + b.toNat * 256 ^ bs.length := by ring
      omega
    unfold readFieldStep
    rw [if_neg (by omega)]
    have hs : IntTy.i64.cast ((acc : Int) * 256) + (b.toNat : Int) = IntTy.i64.cast ((acc * 256 + b.toNat : Nat) : Int) := by
      have hb := b.toNat_lt
      have key : ∀ v : Nat, v < 2 ^ 64 → IntTy.i64.cast (v : Int) = if v < 2 ^ 63 then (v : Int) else (v : Int) - 2 ^ 64 := by
        intro v hv
        unfold IntTy.cast IntTy.i64
        simp only [Bool.true_and]
        rw [Int.emod_eq_of_lt (by omega) (by omega)]
        by_cases h : v < 2 ^ 63
        · rw [if_pos h, if_neg (by simp; omega)]
        · rw [if_neg h, if_pos (by simp; omega)]; rfl
      rw [key _ h1]
      have hk := key (acc * 256) (Nat.lt_of_le_of_lt (Nat.le_add_right _ _) h1)
      rw [Int.natCast_mul] at hk
      rw [show ((acc : Int) * 256) = (acc : Int) * ((256 : Nat) : Int) from rfl, hk]
      clear hk key hc h
      split <;> split <;> omega
    show readField bs.length (IntTy.i64.cast ((acc : Int) * 256) + (b.toNat : Int)) (bs ++ rest) = _
    rw [hs]
    rw [readField_spec bs (acc * 256 + b.toNat) rest ?_ ?_]
    · rw [bigEndian_cons, Nat.pow_succ]
      congr 4; ring
    · have e : (acc * 256 + b.toNat) * 256 ^ bs.length = acc * (256 ^ bs.length * 256) + b.toNat * 256 ^ bs.length := by ring
      omega
    · cases bs with
      | nil => exact Or.inr rfl
      | cons c cs =>
        left
        rw [List.length_cons, Nat.pow_succ] at h
        have hp : 1 ≤ 256 ^ cs.length := Nat.pow_pos (by decide)
        have h2 : (acc * 256 + b.toNat) * 256 * 1 ≤ (acc * 256 + b.toNat) * 256 * 256 ^ cs.length := Nat.mul_le_mul_left _ hp
        have e : (acc * 256 + b.toNat) * 256 * 256 ^ cs.length = acc * (256 ^ cs.length * 256 * 256) + b.toNat * (256 ^ cs.length * 256) := by ring
        omega

end VPdf
