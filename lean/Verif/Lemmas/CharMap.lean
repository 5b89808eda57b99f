import Verif.Model.CharMap
import Verif.Lemmas.Ints
import Verif.Lemmas.Parse
/-
  Lemmas about character maps.
-/
namespace VPdf

theorem diffBits_spec (src dst : Nat) (borrow : Bool) (n : Nat) :
    (diffBits src dst borrow n).1 < 2 ^ n ∧
    src % 2 ^ n + (if (diffBits src dst borrow n).2 then 2 ^ n else 0) =
      dst % 2 ^ n + (if borrow then 1 else 0) + (diffBits src dst borrow n).1 := by
  induction n with
  | zero => cases borrow <;> simp [diffBits, Nat.mod_one]
  | succ n ih =>
    obtain ⟨h1, h2⟩ := ih
    rw [diffBits]
    generalize diffBits src dst borrow n = r at h1 h2 ⊢
    obtain ⟨result, b⟩ := r
    dsimp only at h1 h2 ⊢
    have hs : src % 2 ^ (n + 1) = src % 2 ^ n + 2 ^ n * (if src.testBit n then 1 else 0) := by
      rw [Nat.mod_pow_succ, Nat.testBit_eq_decide_div_mod_eq]
      rcases Nat.mod_two_eq_zero_or_one (src / 2 ^ n) with h | h <;> simp [h]
    have hd : dst % 2 ^ (n + 1) = dst % 2 ^ n + 2 ^ n * (if dst.testBit n then 1 else 0) := by
      rw [Nat.mod_pow_succ, Nat.testBit_eq_decide_div_mod_eq]
      rcases Nat.mod_two_eq_zero_or_one (dst / 2 ^ n) with h | h <;> simp [h]
    have hor : result ||| 2 ^ n = result + 2 ^ n := by
      have := Nat.two_pow_add_eq_or_of_lt h1 1
      rw [Nat.mul_one] at this
      rw [Nat.or_comm, ← this, Nat.add_comm]
    rw [hs, hd, hor, Nat.pow_succ]
    cases src.testBit n <;> cases dst.testBit n <;> cases b <;> simp [diffBit] at h2 ⊢ <;> omega

theorem diffByte_spec (s d : Byte) (borrow : Bool) :
    (diffByte s d borrow).1 < 256 ∧
    s.toNat + (if (diffByte s d borrow).2 then 256 else 0) = d.toNat + (if borrow then 1 else 0) + (diffByte s d borrow).1 := by
  have h := diffBits_spec s.toNat d.toNat borrow 8
  have hs := s.toNat_lt
  have hd := d.toNat_lt
  rw [Nat.mod_eq_of_lt (by omega), Nat.mod_eq_of_lt (by omega)] at h
  exact h

/-- The number of a little-endian list of bytes. -/
def littleEndian : Bytes → Nat
  | [] => 0
  | b :: s => b.toNat + 256 * littleEndian s

theorem littleEndian_append (s t : Bytes) : littleEndian (s ++ t) = littleEndian s + 256 ^ s.length * littleEndian t := by
  induction s with
  | nil => simp [littleEndian]
  | cons b s ih =>
    rw [List.cons_append, littleEndian, ih, littleEndian, List.length_cons, Nat.pow_succ]
    ring

theorem littleEndian_reverse (s : Bytes) : littleEndian s.reverse = Spec.bigEndian s := by
  induction s with
  | nil => rfl
  | cons b s ih =>
    rw [List.reverse_cons, littleEndian_append, ih, List.length_reverse, bigEndian_cons]
    simp [littleEndian]; ring

theorem littleEndian_lt (s : Bytes) : littleEndian s < 256 ^ s.length := by
  induction s with
  | nil => simp [littleEndian]
  | cons b s ih =>
    have hb := b.toNat_lt
    rw [littleEndian, List.length_cons, Nat.pow_succ]
    omega

theorem littleEndian_inj {s t : Bytes} (hl : s.length = t.length) (h : littleEndian s = littleEndian t) : s = t := by
  induction s generalizing t with
  | nil => cases t with
    | nil => rfl
    | cons c t => simp at hl
  | cons b s ih => cases t with
    | nil => simp at hl
    | cons c t =>
      rw [littleEndian, littleEndian] at h
      have hb := b.toNat_lt
      have hc := c.toNat_lt
      have e1 : b.toNat = c.toNat := by omega
      have e2 : littleEndian s = littleEndian t := by omega
      rw [ih (by simpa using hl) e2, UInt8.toNat_inj.1 e1]

/-- The loop of the difference. -/
theorem differenceLoop_spec (ss ts : Bytes) (i : Nat) (borrow : Bool) (result : Nat) (hl : ss.length = ts.length)
    (hi : i + ss.length ≤ 4) (hr : result < 256 ^ i)
    (hge : littleEndian ts + (if borrow then 1 else 0) ≤ littleEndian ss) :
    differenceLoop i (ss.zip ts) borrow result =
      .ok (result + 256 ^ i * (littleEndian ss - littleEndian ts - (if borrow then 1 else 0))) := by
  induction ss generalizing ts i borrow result with
  | nil =>
    cases ts with
    | nil => simp [differenceLoop, littleEndian]
    | cons t ts => simp at hl
  | cons s ss ih =>
    cases ts with
    | nil => simp at hl
    | cons t ts =>
      rw [List.length_cons] at hi
      rw [List.zip_cons_cons, differenceLoop]
      obtain ⟨h1, h2⟩ := diffByte_spec s t borrow
      generalize diffByte s t borrow = r at h1 h2 ⊢
      obtain ⟨d, b⟩ := r
      dsimp only at h1 h2 ⊢
      rw [if_neg (by omega)]
      have hsh : d <<< (i * 8) = d * 256 ^ i := by
        rw [Nat.shiftLeft_eq, Nat.mul_comm i 8, Nat.pow_mul]
      have hlt : result + d * 256 ^ i < 256 ^ (i + 1) := by
        rw [Nat.pow_succ]
        have : d * 256 ^ i ≤ 255 * 256 ^ i := Nat.mul_le_mul_right _ (by omega)
        omega
      have hpow : 256 ^ (i + 1) ≤ 2 ^ 32 := by
        have : (2 : Nat) ^ 32 = 256 ^ 4 := by norm_num
        rw [this]; exact Nat.pow_le_pow_right (by omega) (by omega)
      rw [hsh, Nat.mod_eq_of_lt (by omega)]
      rw [littleEndian, littleEndian] at hge ⊢
      have hge' : littleEndian ts + (if b then 1 else 0) ≤ littleEndian ss := by
        cases b <;> cases borrow <;> simp at h2 hge ⊢ <;> omega
      rw [ih ts (i + 1) b _ (by simpa using hl) (by omega) hlt hge']
      congr 1
      have key : s.toNat + 256 * littleEndian ss - (t.toNat + 256 * littleEndian ts) - (if borrow then 1 else 0) =
          d + 256 * (littleEndian ss - littleEndian ts - (if b then 1 else 0)) := by
        cases b <;> cases borrow <;> simp at h2 hge hge' ⊢ <;> omega
      rw [key, Nat.pow_succ]
      ring

theorem bufferDifference_eq {a b : Bytes} (hl : a.length = b.length) (h4 : a.length ≤ 4) (h : Spec.bigEndian b ≤ Spec.bigEndian a) :
    bufferDifference a b = .ok (Spec.bigEndian a - Spec.bigEndian b) := by
  unfold bufferDifference bytesFromEnd
  simp only [← hl, Nat.max_self, Nat.sub_self, List.replicate_zero, List.append_nil]
  rw [differenceLoop_spec _ _ 0 false 0 (by simpa using hl) (by simpa using h4) (by simp)
    (by rw [littleEndian_reverse, littleEndian_reverse]; simpa using h)]
  rw [littleEndian_reverse, littleEndian_reverse]
  simp

/-- The little-endian digits of a number. -/
def leDigits : Nat → Nat → Bytes
  | 0, _ => []
  | n + 1, v => UInt8.ofNat (v % 256) :: leDigits n (v / 256)

theorem leDigits_length (n v : Nat) : (leDigits n v).length = n := by
  induction n generalizing v with
  | zero => rfl
  | succ n ih => rw [leDigits, List.length_cons, ih]

theorem littleEndian_leDigits (n v : Nat) (h : v < 256 ^ n) : littleEndian (leDigits n v) = v := by
  induction n generalizing v with
  | zero => simp at h; subst h; rfl
  | succ n ih =>
    rw [leDigits, littleEndian, ih _ (by rw [Nat.pow_succ] at h; omega)]
    have : (UInt8.ofNat (v % 256)).toNat = v % 256 := by
      rw [UInt8.toNat_ofNat_of_lt']; show v % 256 < 256; omega
    rw [this]; omega

/-- The loop of the increment: `q` is the rest of the count. -/
theorem incrementLoop_spec (bs : Bytes) (i q : Nat) (result : Bytes) (hi : i + bs.length ≤ 4)
    (hfit : littleEndian bs + q < 256 ^ bs.length) (hq : q * 256 ^ i < 2 ^ 32) :
    incrementLoop i bs (q * 256 ^ i) result =
      .ok ((leDigits bs.length (littleEndian bs + q)).reverse ++ result, 0) := by
  induction bs generalizing i q result with
  | nil =>
    simp [littleEndian] at hfit
    subst hfit
    simp [incrementLoop, leDigits]
  | cons b bs ih =>
    rw [List.length_cons] at hi hfit
    rw [littleEndian] at hfit
    have hb := b.toNat_lt
    have hpos : 0 < 256 ^ i := Nat.pow_pos (by omega)
    have e8 : 2 ^ (i * 8) = 256 ^ i := by rw [Nat.mul_comm, Nat.pow_mul]
    have hinc : (q * 256 ^ i) >>> (i * 8) % 256 = q % 256 := by
      rw [Nat.shiftRight_eq_div_pow, e8, Nat.mul_div_cancel _ hpos]
    have hpow : 256 ^ (i + 1) ≤ 2 ^ 32 := by
      have : (2 : Nat) ^ 32 = 256 ^ 4 := by norm_num
      rw [this]; exact Nat.pow_le_pow_right (by omega) (by omega)
    have hsub : (2 ^ 32 + q * 256 ^ i - ((q % 256) <<< (i * 8)) % 2 ^ 32) % 2 ^ 32 = (q / 256) * 256 ^ (i + 1) := by
      rw [Nat.shiftLeft_eq, e8]
      have h1 : q % 256 * 256 ^ i < 256 ^ (i + 1) := by
        rw [Nat.pow_succ, Nat.mul_comm (256 ^ i)]
        exact Nat.mul_lt_mul_of_pos_right (by omega) hpos
      rw [Nat.mod_eq_of_lt (a := q % 256 * 256 ^ i) (Nat.lt_of_lt_of_le h1 hpow)]
      have h2 : q * 256 ^ i = (q / 256) * 256 ^ (i + 1) + q % 256 * 256 ^ i := by
        conv => lhs; rw [← Nat.div_add_mod q 256]
        rw [Nat.pow_succ]; ring
      have h3 : 2 ^ 32 + q * 256 ^ i - q % 256 * 256 ^ i = 2 ^ 32 + (q / 256) * 256 ^ (i + 1) := by omega
      rw [h3, Nat.add_mod_left, Nat.mod_eq_of_lt (by omega)]
    have hpowb : 256 ^ (bs.length + 1) = 256 * 256 ^ bs.length := by rw [Nat.pow_succ]; ring
    rw [hpowb] at hfit
    have hstep : ∀ c, c = (b.toNat + q) / 256 → c * 256 ^ (i + 1) < 2 ^ 32 →
        incrementLoop (i + 1) bs (c * 256 ^ (i + 1)) (UInt8.ofNat ((b.toNat + q) % 256) :: result) =
        .ok ((leDigits (b :: bs).length (littleEndian (b :: bs) + q)).reverse ++ result, 0) := by
      rintro c rfl hc
      rw [ih (i + 1) _ _ (by omega) (by omega) hc, List.length_cons, leDigits, List.reverse_cons, littleEndian]
      have e1 : (b.toNat + 256 * littleEndian bs + q) % 256 = (b.toNat + q) % 256 := by omega
      have e2 : (b.toNat + 256 * littleEndian bs + q) / 256 = littleEndian bs + (b.toNat + q) / 256 := by omega
      rw [e1, e2, List.append_assoc]
      rfl
    rw [incrementLoop, if_neg (by omega)]
    dsimp only
    rw [hinc, hsub]
    by_cases hc : 255 - b.toNat ≥ q % 256
    · rw [if_pos hc]
      have e1 : b.toNat + q % 256 = (b.toNat + q) % 256 := by omega
      have e2 : q / 256 = (b.toNat + q) / 256 := by omega
      rw [e1]
      refine hstep _ e2 ?_
      have : q / 256 * 256 ^ (i + 1) ≤ q * 256 ^ i := by
        rw [Nat.pow_succ]
        have : q / 256 * (256 ^ i * 256) = (q / 256 * 256) * 256 ^ i := by ring
        rw [this]
        exact Nat.mul_le_mul_right _ (by omega)
      omega
    · rw [if_neg hc]
      have hlen : 0 < bs.length := by
        rcases Nat.eq_zero_or_pos bs.length with h | h
        · rw [h] at hfit
          have : littleEndian bs = 0 := by
            have := List.length_eq_zero_iff.1 h; subst this; rfl
          omega
        · exact h
      rw [if_neg (by omega)]
      have e1 : (b.toNat + q % 256) % 256 = (b.toNat + q) % 256 := by omega
      have e2 : q / 256 + 1 = (b.toNat + q) / 256 := by omega
      have hone : (1 : Nat) <<< ((i + 1) * 8) = 256 ^ (i + 1) := by
        rw [Nat.shiftLeft_eq, Nat.one_mul, Nat.mul_comm, Nat.pow_mul]
      have hsum : q / 256 * 256 ^ (i + 1) + 256 ^ (i + 1) = (q / 256 + 1) * 256 ^ (i + 1) := by ring
      have hbound : (q / 256 + 1) * 256 ^ (i + 1) < 2 ^ 32 := by
        have h1 : q / 256 + 1 < 256 ^ bs.length := by rw [e2]; omega
        have h2 : (q / 256 + 1) * 256 ^ (i + 1) < 256 ^ bs.length * 256 ^ (i + 1) :=
          Nat.mul_lt_mul_of_pos_right h1 (Nat.pow_pos (by omega))
        rw [← Nat.pow_add] at h2
        have : (2 : Nat) ^ 32 = 256 ^ 4 := by norm_num
        rw [this]
        exact Nat.lt_of_lt_of_le h2 (Nat.pow_le_pow_right (by omega) (by omega))
      rw [e1, hone, hsum, Nat.mod_eq_of_lt hbound]
      exact hstep _ e2 hbound

theorem increment_eq {data : Bytes} {count : Nat} (hl : data.length ≤ 4) (hc : count < 2 ^ 32)
    (hfit : Spec.bigEndian data + count < 256 ^ data.length) :
    ∃ v, increment data count = .ok v ∧ v.length = data.length ∧ Spec.bigEndian v = Spec.bigEndian data + count := by
  have h := incrementLoop_spec data.reverse 0 count [] (by simpa using hl) (by rw [littleEndian_reverse, List.length_reverse]; exact hfit)
    (by simpa using hc)
  rw [Nat.pow_zero, Nat.mul_one, littleEndian_reverse, List.length_reverse] at h
  refine ⟨(leDigits data.length (Spec.bigEndian data + count)).reverse, ?_, by simp [leDigits_length], ?_⟩
  · unfold increment
    rw [h, ok_bind]
    simp; rfl
  · rw [← littleEndian_reverse, List.reverse_reverse, littleEndian_leDigits _ _ hfit]

theorem valueLeBytes_iff {a b : Bytes} (hl : a.length = b.length) :
    valueLeBytes a b = true ↔ Spec.bigEndian a ≤ Spec.bigEndian b := by
  induction a generalizing b with
  | nil => cases b with
    | nil => simp [valueLeBytes]
    | cons y b => simp at hl
  | cons x a ih => cases b with
    | nil => simp at hl
    | cons y b =>
      have hl' : a.length = b.length := by simpa using hl
      have ha := bigEndian_lt a
      have hb := bigEndian_lt b
      rw [hl'] at ha
      rw [valueLeBytes, bigEndian_cons, bigEndian_cons, hl']
      by_cases hxy : x = y
      · subst hxy
        simp only [ne_eq, not_true_eq_false, if_false]
        rw [ih hl']; omega
      · have hne : x.toNat ≠ y.toNat := fun e => hxy (UInt8.toNat_inj.1 e)
        rw [if_pos hxy, decide_eq_true_iff]
        constructor
        · intro h
          have : (x.toNat + 1) * 256 ^ b.length ≤ y.toNat * 256 ^ b.length := Nat.mul_le_mul_right _ h
          rw [Nat.add_mul, Nat.one_mul] at this
          omega
        · intro h
          by_contra hc
          have : (y.toNat + 1) * 256 ^ b.length ≤ x.toNat * 256 ^ b.length := Nat.mul_le_mul_right _ (by omega)
          rw [Nat.add_mul, Nat.one_mul] at this
          omega

theorem valueLe_iff (a b : Bytes) :
    valueLe a b = true ↔ a.length < b.length ∨ (a.length = b.length ∧ Spec.bigEndian a ≤ Spec.bigEndian b) := by
  unfold valueLe
  by_cases h : a.length = b.length
  · rw [if_neg (by simpa using h), valueLeBytes_iff h]
    constructor
    · intro x; exact Or.inr ⟨h, x⟩
    · rintro (x | x)
      · omega
      · exact x.2
  · rw [if_pos h, decide_eq_true_iff]
    constructor
    · exact Or.inl
    · rintro (x | x)
      · exact x
      · exact absurd x.1 h

theorem bigEndian_inj {s t : Bytes} (hl : s.length = t.length) (h : Spec.bigEndian s = Spec.bigEndian t) : s = t := by
  rw [← littleEndian_reverse, ← littleEndian_reverse] at h
  exact List.reverse_inj.1 (littleEndian_inj (by simpa using hl) h)

end VPdf
