import Verif.Lemmas.Passwords

/-! Encrypting and decrypting the data of an object. -/
namespace VPdf
open Spec (Lawful)

/-- The bytes that appear behind data after encryption and decryption with AES. -/
def extraBytes (data : Bytes) : Bytes :=
  if data = [] then [] else List.replicate (addedBytes data.length) (UInt8.ofNat (addedBytes data.length))

theorem addPadding_extra {data : Bytes} (h : data ≠ []) : addPadding data = data ++ extraBytes data := by
  rw [addPadding_eq, extraBytes, if_neg h]

theorem aes_round {k : Crypto} (hk : Lawful k) {key : Bytes} {n : Nat} {iv d c : Bytes} (hi : iv.length = 16) (hd : d ≠ [])
    (hlen : d.length + 32 < 2147483647) (h : aesEncrypt k key n iv d = .ok c) :
    c ≠ [] ∧ aesDecrypt k key n c = .ok (d ++ extraBytes d) := by
  have hn : n = 16 ∨ n = 32 := by
    by_contra hc
    unfold aesEncrypt at h
    rw [if_neg hd] at h
    dsimp only at h
    rw [if_pos (by omega)] at h
    cases h
  have hkey : n ≤ key.length := by
    by_contra hc
    unfold aesEncrypt at h
    rw [if_neg hd] at h
    dsimp only at h
    rw [if_neg (by omega), if_pos (by omega)] at h
    cases h
  rw [aesEncrypt_ok hk iv hn hkey hi hd (by omega)] at h
  have h := Except.ok.inj h
  have hb := addedBytes_bounds d.length
  refine ⟨?_, ?_⟩
  · rw [← h]; intro e; rw [(List.append_eq_nil_iff.mp e).1] at hi; cases hi
  · rw [← h, aesDecrypt_evp hk hn hkey hi (by rw [addPadding_length]; omega), addPadding_extra hd]

theorem computeObjectKey_length {k : Crypto} (hk : Lawful k) (key : Bytes) (n g : Nat) (alg : Algorithm) :
    (computeObjectKey k key n g alg).length = min (key.length + 5) 16 := by
  rw [computeObjectKey, List.length_take, hk.md5_length]; omega

/-- Data written by one file and read by another one with the same dictionary and key. -/
theorem encryptAlg_decryptAlg {k : Crypto} (hk : Lawful k) {F F' : SecureFile} {d : EncDict} {key : Bytes} {alg : Algorithm}
    {n g : Nat} {r r' iv data c : Bytes} (hF : F.dict = some d) (hF' : F'.dict = some d)
    (hkey : fileKey k F d r = .ok key) (hkey' : fileKey k F' d r' = .ok key)
    (hn : n ≠ 0 ∨ d.entry = none) (hent : F'.entry n g = some false) (hi : iv.length = 16)
    (hlen : data.length + 32 < 2147483647) (h : encryptAlg k F alg n g r iv data = .ok c) :
    decryptAlg k F' alg n g r' c =
      .ok (data ++ if alg = .aes ∧ d.entry ≠ some (n, g) then extraBytes data else []) := by
  unfold encryptAlg at h
  unfold decryptAlg
  rw [hF] at h
  rw [hF']
  dsimp only at h ⊢
  rw [hkey, ok_bind] at h
  by_cases he : d.entry = some (n, g)
  · rw [if_pos ⟨by rw [he]; rfl, .inr he⟩] at h
    rw [← Except.ok.inj h, if_pos he, if_neg (by simp [he] : ¬ (alg = .aes ∧ d.entry ≠ some (n, g))), List.append_nil]
    by_cases hd : data = []
    · rw [if_pos hd, hd]
    · rw [if_neg hd]
  · rw [if_neg (by
      rintro ⟨h1, h2 | h2⟩
      · rcases hn with hn | hn
        · exact hn h2
        · rw [hn] at h1; cases h1
      · exact he h2)] at h
    rw [if_neg he, hent]
    dsimp only
    rw [hkey', ok_bind]
    by_cases hd : data = []
    · have hc : c = [] := by
        rw [hd] at h
        by_cases ha : alg = .aes
        · simp only [ha, aesEncrypt, if_true] at h
          split at h <;> exact (Except.ok.inj h).symm
        · rw [if_neg (fun x => ha x.2)] at h
          rw [if_neg ha] at h
          exact List.length_eq_zero_iff.mp (computeRC4_length hk h)
      rw [if_pos hc, hd, extraBytes]
      simp
    · by_cases ha : alg = .aes
      · rw [if_pos (⟨ha, he⟩ : alg = .aes ∧ d.entry ≠ some (n, g))]
        by_cases h32 : key.length = 32
        · rw [if_pos ⟨h32, ha⟩] at h
          obtain ⟨hc, h⟩ := aes_round hk hi hd hlen h
          rw [if_neg hc, if_pos ⟨h32, ha⟩, h]
        · rw [if_neg (fun x => h32 x.1)] at h
          rw [if_pos ha] at h
          obtain ⟨hc, h⟩ := aes_round hk hi hd hlen h
          rw [if_neg hc, if_neg (fun x => h32 x.1)]
          rw [if_pos ha, h]
      · rw [if_neg (fun x => ha x.1 : ¬ (alg = .aes ∧ d.entry ≠ some (n, g))), List.append_nil]
        rw [if_neg (fun x => ha x.2)] at h
        rw [if_neg ha] at h
        have hl := computeRC4_length hk h
        rw [if_neg (by intro e; rw [e] at hl; exact hd (List.length_eq_zero_iff.mp hl.symm)), if_neg (fun x => ha x.2)]
        rw [if_neg ha, computeRC4_twice hk h]

/-- Encryption succeeds: data of moderate length and, for AES, a key of 16 or 32 bytes. -/
theorem encryptAlg_ok {k : Crypto} (hk : Lawful k) {F : SecureFile} {d : EncDict} {key : Bytes} {alg : Algorithm}
    {n g : Nat} {r iv data : Bytes} (hF : F.dict = some d) (hkey : fileKey k F d r = .ok key) (hi : iv.length = 16)
    (hlen : data.length + 32 < 2147483647) (ha : alg = .aes → 11 ≤ key.length) :
    ∃ c, encryptAlg k F alg n g r iv data = .ok c := by
  unfold encryptAlg
  rw [hF]
  dsimp only
  rw [hkey, ok_bind]
  have hol := computeObjectKey_length hk key n g alg
  by_cases he : d.entry.isSome ∧ (n = 0 ∨ d.entry = some (n, g))
  · rw [if_pos he]; exact ⟨_, rfl⟩
  · rw [if_neg he]
    by_cases ha' : alg = .aes
    · have h11 := ha ha'
      by_cases hd : data = []
      · simp only [hd, aesEncrypt, ha', if_true]
        split <;> exact ⟨_, rfl⟩
      · by_cases h32 : key.length = 32
        · rw [if_pos ⟨h32, ha'⟩, aesEncrypt_ok hk iv (.inr rfl) (by omega) hi hd (by omega)]
          exact ⟨_, rfl⟩
        · rw [if_neg (fun x => h32 x.1)]
          rw [if_pos ha', aesEncrypt_ok hk iv (.inl (by omega)) (Nat.le_refl _) hi hd (by omega)]
          exact ⟨_, rfl⟩
    · rw [if_neg (fun x => ha' x.2)]
      rw [if_neg ha', computeRC4_ok k (Nat.le_refl _) (by omega) (by omega)]
      exact ⟨_, rfl⟩

theorem cbcEnc_chained (enc : Bytes → Bytes) : ∀ (blocks : List Bytes) (iv : Bytes), (∀ b ∈ blocks, b.length = 16) →
    cbcEnc enc blocks.length iv blocks.flatten = Spec.chained enc iv blocks
  | [], _, _ => rfl
  | b :: bs, iv, h => by
    have hb := h b (by simp)
    rw [List.length_cons, cbcEnc, List.flatten_cons, Spec.chained, List.take_left' hb, List.drop_left' hb]
    rw [cbcEnc_chained enc bs _ (fun x hx => h x (by simp [hx]))]
    rfl

theorem evpEncrypt_chained (enc : Bytes → Bytes) {iv d : Bytes} {blocks : List Bytes} (hb : ∀ b ∈ blocks, b.length = 16)
    (h : blocks.flatten = Spec.pkcs7 d) : evpEncrypt enc iv d = Spec.chained enc iv blocks := by
  have hl : blocks.flatten.length = 16 * blocks.length := by
    clear h
    induction blocks with
    | nil => rfl
    | cons b bs ih =>
      rw [List.flatten_cons, List.length_append, hb b (by simp), ih (fun x hx => hb x (by simp [hx])), List.length_cons]; omega
  rw [h, Spec.pkcs7, List.length_append, List.length_replicate] at hl
  rw [← cbcEnc_chained enc blocks iv hb, h]
  unfold evpEncrypt Spec.pkcs7
  dsimp only
  rw [hl]
  congr 1
  omega

end VPdf
