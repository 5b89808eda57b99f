import Verif.Model.Encryption
import Verif.Spec.Encryption
import Verif.Lemmas.Ints
import Verif.Lemmas.XrefStream
import Verif.Lemmas.Clone

namespace VPdf
open Spec (Lawful)

/-! ### Conversions of lengths -/

theorem cast_i32 {v : Int} (h1 : -2147483648 ≤ v) (h2 : v ≤ 2147483647) : IntTy.i32.cast v = v := by
  have e1 : ((2 ^ 32 : Nat) : Int) = 4294967296 := by decide
  have e2 : ((2 ^ 31 : Nat) : Int) = 2147483648 := by decide
  simp only [IntTy.cast, IntTy.i32, Bool.true_and, decide_eq_true_eq, e1, e2, show 32 - 1 = 31 from rfl]
  split <;> omega

theorem convert_length {n : Nat} (h : n < 2147483647) : safeConvert .i32 .u64 (n : Int) = .ok (n : Int) := by
  have r : isInRange .i32 .u64 (n : Int) = true := by
    unfold isInRange
    rw [if_neg (by decide), if_neg (by decide)]
    have e : IntTy.i32.toUnsigned.cast IntTy.i32.max = 2147483647 := by decide
    rw [e]; simp; omega
  rw [safeConvert, if_pos r, cast_i32 (by omega) (by omega)]

theorem convert_i32_i64 {v : Int} (h1 : -2147483648 ≤ v) (h2 : v ≤ 2147483647) : safeConvert .i32 .i64 v = .ok v := by
  have r : isInRange .i32 .i64 v = true := by
    unfold isInRange isInRangeSame
    rw [if_pos (by decide), if_neg (by decide)]
    have e1 : IntTy.i32.lowest = -2147483648 := by decide
    have e2 : IntTy.i32.max = 2147483647 := by decide
    rw [e1, e2]; simp [h1, h2]
  rw [safeConvert, if_pos r, cast_i32 h1 h2]

theorem convert_u64_i32 {n : Nat} (h : n ≤ 2147483647) : safeConvert .u64 .i32 (n : Int) = .ok (n : Int) := by
  have e : IntTy.u64.cast (n : Int) = n := by simp [IntTy.cast, IntTy.u64]; omega
  have e' : IntTy.u32.cast (n : Int) = n := by simp [IntTy.cast, IntTy.u32]; omega
  have r : isInRange .u64 .i32 (n : Int) = true := by
    unfold isInRange isInRangeSame
    rw [if_neg (by decide), if_pos (by decide), if_neg (by omega), if_neg (by decide)]
    have e0 : IntTy.i32.toUnsigned = IntTy.u32 := rfl
    rw [e0, e']
    have e1 : IntTy.u64.lowest = 0 := by decide
    have e2 : IntTy.u64.max = 18446744073709551615 := by decide
    rw [e1, e2]; simp; omega
  rw [safeConvert, if_pos r, e]

/-! ### RC4 -/

theorem xorBytes_length (a b : Bytes) : (xorBytes a b).length = min a.length b.length := by
  simp [xorBytes]

theorem xor_cancel (a b : UInt8) : (a ^^^ b) ^^^ b = a := by
  rw [UInt8.xor_assoc, UInt8.xor_self, UInt8.xor_zero]

theorem xorBytes_cancel : ∀ (d s : Bytes), d.length ≤ s.length → xorBytes (xorBytes d s) s = d
  | [], _, _ => by simp [xorBytes]
  | a :: d, [], h => by simp at h
  | a :: d, b :: s, h => by
    have ih := xorBytes_cancel d s (by simpa using h)
    simp only [xorBytes, List.zipWith_cons_cons, xor_cancel] at ih ⊢
    rw [ih]

theorem xorKey_length (key : Bytes) (i : Nat) : (xorKey key i).length = key.length := by simp [xorKey]

theorem xorKey_zero (key : Bytes) : xorKey key 0 = key := by
  have e : (fun x : UInt8 => x ^^^ UInt8.ofNat 0) = id := by
    funext x
    show x ^^^ UInt8.ofNat 0 = x
    rw [show UInt8.ofNat 0 = 0 from rfl, UInt8.xor_zero]
  simp only [xorKey, e, List.map_id]

/-- RC4 whose lengths are acceptable. -/
theorem computeRC4_ok (k : Crypto) {key : Bytes} {n : Nat} {data : Bytes} (h1 : n ≤ key.length) (h2 : n < 2147483647)
    (h3 : data.length < 2147483647) :
    computeRC4 k key n data = .ok (xorBytes data (k.keystream (key.take n) data.length)) := by
  unfold computeRC4
  rw [convert_length h2]
  simp only [ok_bind]
  rw [if_neg (by omega), convert_length h3]
  rfl

/-- RC4 never changes a length. -/
theorem computeRC4_length {k : Crypto} (hk : Lawful k) {key : Bytes} {n : Nat} {data c : Bytes}
    (h : computeRC4 k key n data = .ok c) : c.length = data.length := by
  unfold computeRC4 at h
  obtain ⟨_, _, h⟩ := except_bind_ok h
  by_cases h1 : key.length < n
  · rw [if_pos h1] at h; cases h
  · rw [if_neg h1] at h
    obtain ⟨_, _, h⟩ := except_bind_ok h
    have h := Except.ok.inj h
    rw [← h, xorBytes_length, hk.keystream_length]; simp

/-- RC4 undoes itself. -/
theorem computeRC4_twice {k : Crypto} (hk : Lawful k) {key : Bytes} {n : Nat} {data c : Bytes}
    (h : computeRC4 k key n data = .ok c) : computeRC4 k key n c = .ok data := by
  have hl := computeRC4_length hk h
  unfold computeRC4 at h ⊢
  obtain ⟨v, hv, h⟩ := except_bind_ok h
  rw [hv, ok_bind]
  by_cases h1 : key.length < n
  · rw [if_pos h1] at h; cases h
  · rw [if_neg h1] at h ⊢
    obtain ⟨w, hw, h⟩ := except_bind_ok h
    have h := Except.ok.inj h
    rw [hl, hw, ok_bind, ← h]
    rw [xorBytes_cancel _ _ (by rw [hk.keystream_length])]

/-! ### AES -/

theorem cbcEnc_length {enc : Bytes → Bytes} (he : ∀ b, b.length = 16 → (enc b).length = 16) :
    ∀ (n : Nat) (iv d : Bytes), iv.length = 16 → d.length = 16 * n → (cbcEnc enc n iv d).length = 16 * n
  | 0, _, _, _, _ => rfl
  | n + 1, iv, d, hi, hd => by
    have h1 : (xorBytes (d.take 16) iv).length = 16 := by rw [xorBytes_length, List.length_take]; omega
    have hc := he _ h1
    rw [cbcEnc]
    rw [List.length_append, hc, cbcEnc_length he n _ _ hc (by rw [List.length_drop]; omega)]
    omega

theorem cbcDec_cbcEnc {enc dec : Bytes → Bytes} (he : ∀ b, b.length = 16 → (enc b).length = 16)
    (hd : ∀ b, b.length = 16 → dec (enc b) = b) :
    ∀ (n : Nat) (iv d : Bytes), iv.length = 16 → d.length = 16 * n → cbcDec dec n iv (cbcEnc enc n iv d) = d
  | 0, _, d, _, h => by
    have : d = [] := List.length_eq_zero_iff.mp (by omega)
    rw [this]; rfl
  | n + 1, iv, d, hi, h => by
    have h1 : (xorBytes (d.take 16) iv).length = 16 := by rw [xorBytes_length, List.length_take]; omega
    have hc := he _ h1
    have ih := cbcDec_cbcEnc he hd n (enc (xorBytes (d.take 16) iv)) (d.drop 16) hc (by rw [List.length_drop]; omega)
    rw [cbcEnc]
    rw [cbcDec]
    rw [List.take_append_of_le_length (by omega), List.take_of_length_le (by omega), hd _ h1,
      xorBytes_cancel _ _ (by rw [List.length_take]; omega), List.drop_append_of_le_length (by omega),
      List.drop_of_length_le (by omega), List.nil_append, ih, List.take_append_drop]

theorem toNat_ofNat_small {q : Nat} (h : q ≤ 16) : (UInt8.ofNat q).toNat = q := by
  simp [UInt8.toNat_ofNat']; omega

theorem all_replicate (q : Nat) (b : UInt8) : (List.replicate q b).all (· == b) = true := by
  simp [List.all_replicate]

theorem removePadding_replicate (d : Bytes) {q : Nat} (h1 : 1 ≤ q) (h2 : q ≤ 16) :
    removePadding (d ++ List.replicate q (UInt8.ofNat q)) = d := by
  have hlast : (d ++ List.replicate q (UInt8.ofNat q)).getLast? = some (UInt8.ofNat q) := by
    rw [List.getLast?_append, List.getLast?_replicate, if_neg (by omega)]; rfl
  unfold removePadding
  rw [hlast]
  dsimp only
  rw [toNat_ofNat_small h2, if_neg (by simp; omega)]
  have e : (d ++ List.replicate q (UInt8.ofNat q)).length - q = d.length := by simp
  rw [e, List.drop_append_of_le_length (Nat.le_refl _), List.drop_length, List.nil_append,
    if_pos (all_replicate q _), List.take_append_of_le_length (Nat.le_refl _), List.take_length]

/-- The bytes the library puts behind data before it encrypts them. -/
def addedBytes (n : Nat) : Nat := if n % 16 = 0 then 16 else n % 16

theorem addedBytes_bounds (n : Nat) : 1 ≤ addedBytes n ∧ addedBytes n ≤ 16 := by
  unfold addedBytes; split <;> omega

theorem addPadding_eq (d : Bytes) :
    addPadding d = d ++ List.replicate (addedBytes d.length) (UInt8.ofNat (addedBytes d.length)) := rfl

theorem addPadding_length (d : Bytes) : (addPadding d).length = d.length + addedBytes d.length := by
  simp [addPadding_eq]

theorem evpEncrypt_length {enc : Bytes → Bytes} (he : ∀ b, b.length = 16 → (enc b).length = 16) (iv d : Bytes)
    (hi : iv.length = 16) : (evpEncrypt enc iv d).length = d.length + (16 - d.length % 16) := by
  unfold evpEncrypt
  dsimp only
  rw [cbcEnc_length he _ _ _ hi (by simp; omega)]
  omega

/-- What OpenSSL encrypted with its padding is decrypted without: the padding stays. -/
theorem evpDecrypt_evpEncrypt {enc dec : Bytes → Bytes} (he : ∀ b, b.length = 16 → (enc b).length = 16)
    (hd : ∀ b, b.length = 16 → dec (enc b) = b) (iv d : Bytes) (hi : iv.length = 16) :
    evpDecrypt dec iv (evpEncrypt enc iv d) =
      .ok (d ++ List.replicate (16 - d.length % 16) (UInt8.ofNat (16 - d.length % 16))) := by
  have hl := evpEncrypt_length he iv d hi
  unfold evpDecrypt
  rw [if_neg (by omega), hl]
  unfold evpEncrypt
  dsimp only
  rw [cbcDec_cbcEnc he hd _ _ _ hi (by simp; omega)]

/-- Encryption of the library: what it succeeds on. -/
theorem aesEncrypt_ok {k : Crypto} (hk : Lawful k) {key : Bytes} {n : Nat} (iv : Bytes) {d : Bytes} (hn : n = 16 ∨ n = 32)
    (hkey : n ≤ key.length) (hi : iv.length = 16) (hd : d ≠ []) (hlen : d.length + 16 < 2147483647) :
    aesEncrypt k key n iv d = .ok (iv ++ evpEncrypt (k.blockEnc (key.take n)) iv (addPadding d)) := by
  have hb := addedBytes_bounds d.length
  have hp := addPadding_length d
  unfold aesEncrypt
  rw [if_neg hd]
  dsimp only
  rw [if_neg (by omega), if_neg (by omega), convert_length (by omega), ok_bind,
    evpEncrypt_length (hk.blockEnc_length _) _ _ hi, if_neg (by omega)]

/-- Decryption of any data OpenSSL encrypted with its padding. -/
theorem aesDecrypt_evp {k : Crypto} (hk : Lawful k) {key : Bytes} {n : Nat} {iv d : Bytes} (hn : n = 16 ∨ n = 32)
    (hkey : n ≤ key.length) (hi : iv.length = 16) (hlen : d.length + 16 < 2147483647) :
    aesDecrypt k key n (iv ++ evpEncrypt (k.blockEnc (key.take n)) iv d) = .ok d := by
  have hl := evpEncrypt_length (hk.blockEnc_length (key.take n)) iv d hi
  have hll : (iv ++ evpEncrypt (k.blockEnc (key.take n)) iv d).length = 16 + d.length + (16 - d.length % 16) := by
    rw [List.length_append, hl, hi]; omega
  unfold aesDecrypt
  rw [hll, if_neg (by omega), if_neg (by omega), if_neg (by omega), if_neg (by omega), convert_length (by omega), ok_bind,
    show (iv ++ evpEncrypt (k.blockEnc (key.take n)) iv d).take 16 = iv by
      rw [List.take_append_of_le_length (by omega), List.take_of_length_le (by omega)],
    List.drop_append_of_le_length (by omega), List.drop_of_length_le (by omega), List.nil_append,
    evpDecrypt_evpEncrypt (hk.blockEnc_length _) (hk.blockDec_blockEnc _) _ _ hi, ok_bind,
    removePadding_replicate d (by omega) (by omega)]

end VPdf
