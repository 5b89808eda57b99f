import Verif.Lemmas.AddEncryption
import Verif.Spec.Digests
import Verif.Spec.Encryption

/-! # Passwords and keys (C42, C45, C46) -/
namespace VPdf
open Spec (Lawful)

/-- The primitives of the examples: real MD5 and RC4, and in place of AES a block function that is its own inverse. -/
def sampleCrypto : Crypto where
  md5 := Spec.md5
  keystream := Spec.rc4Stream
  blockEnc := fun key b => xorBytes b ((key ++ List.replicate 16 0).take 16)
  blockDec := fun key b => xorBytes b ((key ++ List.replicate 16 0).take 16)

theorem lowBytes_length : ∀ (w n : Nat), (Spec.lowBytes w n).length = w
  | 0, _ => rfl
  | w + 1, n => by rw [Spec.lowBytes, List.length_cons, lowBytes_length w]

theorem rc4Generate_length : ∀ (n i j t : Nat), (Spec.rc4Generate n i j t).length = n
  | 0, _, _, _ => rfl
  | n + 1, i, j, t => by
    rw [Spec.rc4Generate, List.length_cons, rc4Generate_length n]

/-- The laws the theorems assume are met. -/
theorem sampleCrypto_lawful : Lawful sampleCrypto where
  md5_length d := by simp [sampleCrypto, Spec.md5, lowBytes_length]
  keystream_length key n := rc4Generate_length n _ _ _
  blockEnc_length key b h := by simp [sampleCrypto, xorBytes_length, h]
  blockDec_blockEnc key b h := by
    simp only [sampleCrypto]
    rw [xorBytes_cancel _ _ (by simp [h])]

/-! ## C42 -/

/-- C42, for passwords of at most 32 bytes: exactly 32 bytes, the password followed by the padding string.  Missing:
longer passwords, see the counterexample. -/
theorem C42_padded_partial (password : Bytes) (h : password.length ≤ 32) :
    padTruncate password = .ok (Spec.paddedPassword password) ∧ (Spec.paddedPassword password).length = 32 := by
  have hl : Spec.passwordPadding.length = 32 := rfl
  have e : passwordPad = Spec.passwordPadding := rfl
  refine ⟨?_, by rw [Spec.paddedPassword, List.length_take, List.length_append, hl]; omega⟩
  rw [padTruncate_ok h, Spec.paddedPassword, List.take_append, show password.take 32 = password from List.take_of_length_le h, e]

example : padTruncate (b! "secret") = .ok (b! "secret" ++ Spec.passwordPadding.take 26) :=
  (C42_padded_partial (b! "secret") (by decide)).1

/-- C42 fails for every longer password: the library does not truncate it, but copies more bytes than there are. -/
theorem C42_long_counterexample (password : Bytes) (h : 32 < password.length) : padTruncate password = .error .ub :=
  padTruncate_long h

/-! ## C45 -/

/-- The key of an object is made of the key of the document, three bytes of the number and two of the generation, as
the standard says. -/
theorem C45_derivation (k : Crypto) (key : Bytes) (number generation : Nat) (alg : Algorithm) :
    computeObjectKey k key number generation alg =
      (k.md5 (Spec.objectKeyInput key number generation (alg = .aes))).take (min (key.length + 5) 16) := by
  unfold computeObjectKey Spec.objectKeyInput objectInfo
  have e : Spec.lowBytes 3 number ++ Spec.lowBytes 2 generation =
      [UInt8.ofNat number, UInt8.ofNat (number >>> 8), UInt8.ofNat (number >>> 16), UInt8.ofNat generation,
        UInt8.ofNat (generation >>> 8)] := by
    simp only [Spec.lowBytes, Nat.div_div_eq_div_mul, Nat.shiftRight_eq_div_pow, ofNat_mod256]
    rfl
  rw [List.append_assoc key (Spec.lowBytes 3 number), e]
  congr 3
  by_cases h : alg = .aes
  · simp [h, aesSalt]
  · simp [h]

theorem lowBytes_inj : ∀ (w m n : Nat), m < 256 ^ w → n < 256 ^ w → Spec.lowBytes w m = Spec.lowBytes w n → m = n
  | 0, m, n, hm, hn, _ => by omega
  | w + 1, m, n, hm, hn, h => by
    rw [Spec.lowBytes, Spec.lowBytes] at h
    injection h with h1 h2
    have ih := lowBytes_inj w (m / 256) (n / 256) (by rw [pow_succ] at hm; omega) (by rw [pow_succ] at hn; omega) h2
    have e : m % 256 = n % 256 := by
      have := congrArg UInt8.toNat h1
      simpa using this
    omega

/-- C45: within the limits of the format (numbers below 2^24, generations below 2^16) different objects feed different
inputs to the digest. -/
theorem C45_distinct (key : Bytes) (n g n' g' : Nat) (aes aes' : Bool) (hn : n < 16777216) (hg : g < 65536)
    (hn' : n' < 16777216) (hg' : g' < 65536)
    (h : Spec.objectKeyInput key n g aes = Spec.objectKeyInput key n' g' aes') : n = n' ∧ g = g' ∧ aes = aes' := by
  unfold Spec.objectKeyInput at h
  rw [List.append_assoc, List.append_assoc, List.append_assoc, List.append_assoc] at h
  have h := List.append_cancel_left h
  have h1 := List.append_inj h (by rw [lowBytes_length, lowBytes_length])
  have h2 := List.append_inj h1.2 (by rw [lowBytes_length, lowBytes_length])
  refine ⟨lowBytes_inj 3 _ _ hn hn' h1.1, lowBytes_inj 2 _ _ hg hg' h2.1, ?_⟩
  have h3 := h2.2
  cases aes <;> cases aes' <;> simp_all

example : Spec.objectKeyInput [1, 2, 3, 4, 5] 7 0 false ≠ Spec.objectKeyInput [1, 2, 3, 4, 5] 0 7 false := by
  intro h
  have := C45_distinct [1, 2, 3, 4, 5] 7 0 0 7 false false (by omega) (by omega) (by omega) (by omega) h
  omega

/-- Beyond these limits the number is cut: object `n + 2^24` has the key of object `n`. -/
theorem C45_large_counterexample (k : Crypto) (key : Bytes) (n g : Nat) (alg : Algorithm) :
    computeObjectKey k key (n + 16777216) g alg = computeObjectKey k key n g alg := by
  rw [C45_derivation, C45_derivation]
  have e : Spec.lowBytes 3 (n + 16777216) = Spec.lowBytes 3 n := by
    have e1 : (n + 16777216) % 256 = n % 256 := by omega
    have e2 : (n + 16777216) / 256 % 256 = n / 256 % 256 := by omega
    have e3 : (n + 16777216) / 256 / 256 % 256 = n / 256 / 256 % 256 := by omega
    simp only [Spec.lowBytes, e1, e2, e3]
  rw [Spec.objectKeyInput, Spec.objectKeyInput, e]

/-! ## C46 -/

/-- What `AddEncryption` computes: the entries and the key, for passwords of at most 32 bytes and keys of at most 128
bits. -/
theorem addEncryption_spec {k : Crypto} (hk : Lawful k) (s : EncSettings) {id : Bytes} (entry : Nat × Nat) (rnd : Bytes)
    (hid : id ≠ []) (ho : s.ownerPassword.length ≤ 32) (hu : s.userPassword.length ≤ 32)
    (ha : s.algorithm = .rc4 ∨ s.algorithm = .aes) (h0 : 0 ≤ s.keyLength) (h1 : s.keyLength ≤ 128) :
    ∃ d key dg, addEncryption k s id entry rnd = .ok (d, key) ∧ d.standard = true ∧
      d.revision = (if s.keyLength > 40 then 3 else 2) ∧ d.length = some s.keyLength ∧ d.permissions = s.permissions ∧
      d.owner.length = 32 ∧ compared d.revision ≤ d.user.length ∧
      ownerKey k s.ownerPassword s.userPassword s.algorithm s.keyLength d.revision = .ok d.owner ∧
      comparison k (keyDigest k (Spec.paddedPassword s.userPassword) id d.owner (IntTy.u32.cast s.permissions).toNat) id
        d.revision (min (s.keyLength.toNat / 8) 16) = .ok (d.user.take (compared d.revision), dg) ∧
      (∀ r, setPassword k d id s.userPassword r = .ok (some key)) ∧
      (d.revision < 3 ∨ s.keyLength = 128 →
        authOwner k (Spec.paddedPassword s.ownerPassword) d = .ok (Spec.paddedPassword s.userPassword)) := by
  have hpo := (C42_padded_partial _ ho).1
  have hpu := (C42_padded_partial _ hu).1
  generalize Spec.paddedPassword s.ownerPassword = po at hpo
  generalize Spec.paddedPassword s.userPassword = pu at hpu
  generalize hrev : (if s.keyLength > 40 then (3 : Int) else 2) = revision
  have hrv : revision = 2 ∨ revision = 3 := by rw [← hrev]; split <;> simp
  let d0 : EncDict :=
    { standard := true, version := (if s.keyLength > 40 then 2 else 1), revision := revision, length := some s.keyLength,
      owner := [], user := [], permissions := s.permissions, cryptFilters := none, streamFilter := none,
      stringFilter := none, entry := some entry }
  obtain ⟨o, hok, hol, hauth⟩ := ownerKey_ok hk hpo hpu ha h0 h1 d0 (revision := revision) rfl rfl
  obtain ⟨u, huk, hul, dg, hcmp, hchk⟩ := userKey_ok hk hpu ha id o (IntTy.u32.cast s.permissions).toNat revision h0 h1 rnd
  let d : EncDict := { d0 with owner := o, user := u }
  obtain ⟨x, hx⟩ := authOwner_ok hk pu d (by show (0 : Int) ≤ s.keyLength; exact h0)
    (by show s.keyLength ≤ 2147483647; omega) (by show o.length < _; omega)
  have hset : ∀ r, ∃ key, setPassword k d id s.userPassword r = .ok (some key) := by
    intro r
    unfold setPassword
    rw [if_neg hid, if_neg (by simp [d, d0])]
    dsimp only
    rw [show d.revision = revision from rfl, show d.length = some s.keyLength from rfl, Option.getD_some,
      convert_i32_i64 (by omega) (by omega), ok_bind, convert_i32_i64 (by omega) (by omega), ok_bind, hpu, ok_bind, hx, ok_bind]
    have hn := keyBytes_ok h0 (by omega : s.keyLength ≤ 2147483647)
      (keyDigest_length hk x id d.owner (IntTy.u32.cast d.permissions).toNat)
    obtain ⟨c1, d1, hc1, _, h1'⟩ := checkKey_ok hk x id d.owner d.user (IntTy.u32.cast d.permissions).toNat revision hn
    rw [h1' r, if_neg (by show ¬ u.length < _; omega)]
    by_cases hcc : c1 = d.user.take (compared revision)
    · rw [if_pos hcc]; exact ⟨_, rfl⟩
    · rw [if_neg hcc]; exact ⟨_, hchk r⟩
  obtain ⟨key, hkey⟩ := hset rnd
  refine ⟨d, key, dg, ?_, rfl, ?_, rfl, rfl, hol, hul, hok, hcmp, ?_, ?_⟩
  · unfold addEncryption
    rw [if_neg hid]
    dsimp only
    rw [hrev, hok, ok_bind, huk, ok_bind]
    change (setPassword k d id s.userPassword rnd >>= _) = _
    rw [hkey, ok_bind]
  · rfl
  · intro r
    rw [setPassword_rnd hk _ _ _ r rnd, hkey]
  · intro h
    have hh := hauth h
    unfold authOwner at hh ⊢
    exact hh

/-- C46: the user password a document was encrypted with is accepted when it is opened, and gives the key that was used
for the encryption.  (Passwords of at most 32 bytes, keys of at most 128 bits.) -/
theorem C46_user_accepted_partial {k : Crypto} (hk : Lawful k) (s : EncSettings) {id : Bytes} (entry : Nat × Nat) (rnd : Bytes)
    (hid : id ≠ []) (ho : s.ownerPassword.length ≤ 32) (hu : s.userPassword.length ≤ 32)
    (ha : s.algorithm = .rc4 ∨ s.algorithm = .aes) (h0 : 0 ≤ s.keyLength) (h1 : s.keyLength ≤ 128) :
    ∃ d key, addEncryption k s id entry rnd = .ok (d, key) ∧ ∀ r, setPassword k d id s.userPassword r = .ok (some key) := by
  obtain ⟨d, key, dg, h, _, _, _, _, _, _, _, _, hs, _⟩ := addEncryption_spec hk s entry rnd hid ho hu ha h0 h1
  exact ⟨d, key, h, hs⟩

example : ∃ d key, addEncryption sampleCrypto ⟨b! "owner", b! "user", .rc4, 128, -4⟩ (b! "id") (9, 0) [] = .ok (d, key) ∧
    ∀ r, setPassword sampleCrypto d (b! "id") (b! "user") r = .ok (some key) :=
  C46_user_accepted_partial sampleCrypto_lawful _ _ _ (by decide) (by decide) (by decide) (.inl rfl) (by decide) (by decide)

/-- The value compared with the `U` entry is the one of the standard, for keys of 128 bits and, before revision 3, of
40 bits. -/
theorem comparison_standard {k : Crypto} (hk : Lawful k) {input id o : Bytes} {p : Nat} {revision : Int} {n : Nat}
    (hn : revision ≥ 3 ∧ n = 16 ∨ revision < 3 ∧ n = 5) {c d : Bytes}
    (h : comparison k (keyDigest k input id o p) id revision n = .ok (c, d)) :
    c = Spec.userEntry k (Spec.documentKey k.md5 input o id p revision n) id revision := by
  have hkey := comparison_key hk (by omega) h
  rw [← hkey]
  unfold comparison at h
  unfold Spec.userEntry
  have hdl := keyDigest_length hk input id o p
  rcases hn with ⟨hr, rfl⟩ | ⟨hr, rfl⟩
  · rw [if_pos hr] at h
    rw [if_pos hr]
    dsimp only at h
    obtain ⟨a, ha, h⟩ := except_bind_ok h
    obtain ⟨b, hb, h⟩ := except_bind_ok h
    have h := Except.ok.inj h
    have e := (Prod.mk.inj h).2
    rw [← (Prod.mk.inj h).1]
    rw [e] at ha hb
    have hd : d.length = 16 := by
      rw [← e]
      exact repeatFn_inv (P := fun x : Bytes => x.length = 16) (fun x hx => digestRound_length hk (by omega) hx) 50 _ hdl
    have h20 := rc4_twenty k d (k.md5 (passwordPad ++ id))
    rw [ha, ok_bind, hb, rc4Rounds_fold hk (by omega) _ _ (by rw [hk.md5_length]; omega)] at h20
    rw [List.take_of_length_le (by omega)]
    exact Except.ok.inj h20
  · rw [if_neg (by omega)] at h
    rw [if_neg (by omega)]
    obtain ⟨a, ha, h⟩ := except_bind_ok h
    have h := Except.ok.inj h
    rw [← (Prod.mk.inj h).1, ← (Prod.mk.inj h).2]
    rw [computeRC4_ok k (by omega) (by omega) (by decide)] at ha
    exact (Except.ok.inj ha).symm

theorem authOwner_standard {k : Crypto} (hk : Lawful k) (pad : Bytes) (d : EncDict)
    (hn : d.revision ≥ 3 ∧ d.length = some 128 ∨ d.revision < 3) (ho : d.owner.length < 2147483647) :
    authOwner k pad d = .ok (Spec.ownerOpened k pad d.owner d.revision (if d.revision ≥ 3 then 16 else 5)) := by
  unfold authOwner Spec.ownerOpened
  dsimp only
  rcases hn with ⟨hr, hl⟩ | hr
  · rw [if_pos hr, if_pos hr, if_pos hr, hl]
    have e : safeConvert .u64 .i64 (((some (128 : Int)).getD 40).tdiv 8) = .ok 16 := by decide +kernel
    rw [e, ok_bind]
    have hm : min (16 : Int).toNat (k.md5 pad).length = 16 := by rw [hk.md5_length]; rfl
    rw [hm]
    have e2 : repeatFn (digestRound k 16) 50 (k.md5 pad) = Nat.repeat k.md5 50 (k.md5 pad) := by
      rw [← repeatFn_eq]
      exact repeatFn_congr (P := fun x : Bytes => x.length = 16) (fun x hx => digestRound_length hk (by omega) hx) (fun x hx => digestRound_whole hk hx) 50 _ (hk.md5_length _)
    have hl2 : (Nat.repeat k.md5 50 (k.md5 pad)).length = 16 := by
      rw [← repeatFn_eq]
      exact repeatFn_inv (P := fun x : Bytes => x.length = 16) (fun x hx => hk.md5_length x) 50 _ (hk.md5_length _)
    rw [e2, rc4Rounds_fold hk (by omega) _ _ ho, List.take_of_length_le (by omega : _ ≤ 16)]
  · rw [if_neg (by omega), if_neg (by omega), if_neg (by omega), computeRC4_ok k (by rw [hk.md5_length]; omega) (by omega) ho]
    rfl

/-- C46 for files of any producer: a password of at most 32 bytes is accepted exactly when the standard says that it is
the owner password or the user password, and the key kept is the one of the standard.  Missing: keys of revision 3 that
are shorter than 128 bits, see the counterexamples. -/
theorem C46_standard_partial {k : Crypto} (hk : Lawful k) (d : EncDict) {id password : Bytes} (r : Bytes)
    (hid : id ≠ []) (hp : password.length ≤ 32) (hstd : d.standard = true) (hrev : -2147483648 ≤ d.revision ∧ d.revision ≤ 2147483647)
    (hn : d.revision ≥ 3 ∧ d.length = some 128 ∨ d.revision < 3 ∧ (d.length = some 40 ∨ d.length = none))
    (ho : d.owner.length < 2147483647) (hu : (if d.revision ≥ 3 then 16 else 32) ≤ d.user.length) :
    let n := if d.revision ≥ 3 then 16 else 5
    let p := (d.permissions % 4294967296).toNat
    let padded := Spec.paddedPassword password
    let opened := Spec.ownerOpened k padded d.owner d.revision n
    let right := fun x => Spec.authenticates k x d.owner d.user id p d.revision n
    let key := fun x => Spec.documentKey k.md5 x d.owner id p d.revision n
    (right opened → setPassword k d id password r = .ok (some (key opened))) ∧
    (¬ right opened → right padded → setPassword k d id password r = .ok (some (key padded))) ∧
    (¬ right opened → ¬ right padded → setPassword k d id password r = .ok none) := by
  intro n p padded opened right key
  have : DecidablePred right := fun x => Classical.propDecidable _
  have hpad : padTruncate password = .ok padded := (C42_padded_partial _ hp).1
  have hown : authOwner k padded d = .ok opened := authOwner_standard hk padded d (by tauto) ho
  obtain ⟨kl, hkl, hk8, hkr⟩ : ∃ kl : Int, d.length.getD 40 = kl ∧ kl = (if d.revision ≥ 3 then 128 else 40) ∧ kl.tdiv 8 = n := by
    rcases hn with ⟨h, h'⟩ | ⟨h, h' | h'⟩ <;> refine ⟨_, rfl, ?_, ?_⟩ <;> simp [h', n, h, not_le.mpr]
  have hkb : ∀ x, keyBytes kl (keyDigest k x id d.owner (IntTy.u32.cast d.permissions).toNat) = .ok n := by
    intro x
    have := keyBytes_ok (keyLength := kl) (by rw [hk8]; split <;> omega) (by rw [hk8]; split <;> omega)
      (keyDigest_length hk x id d.owner (IntTy.u32.cast d.permissions).toNat)
    rw [this, hk8]
    by_cases h : d.revision ≥ 3 <;> simp [h, n]
  have hpe : (IntTy.u32.cast d.permissions).toNat = p := rfl
  rw [hpe] at hkb
  have hc : ∀ x, checkKey k x id d.owner d.user p d.revision kl r = .ok (if right x then some (key x) else none) := by
    intro x
    obtain ⟨c, dg, _, hcmp, h⟩ := checkKey_ok hk x id d.owner d.user p d.revision (hkb x)
    have h1 := comparison_standard hk (by by_cases h : d.revision ≥ 3 <;> simp [h, n]; omega) hcmp
    have h2 := comparison_key hk (by by_cases h : d.revision ≥ 3 <;> simp [h, n]) hcmp
    rw [h r, if_neg (by unfold compared; omega), h2, h1]
    by_cases hx : right x
    · rw [if_pos hx]; exact congrArg Except.ok (if_pos hx)
    · rw [if_neg hx]; exact congrArg Except.ok (if_neg hx)
  have hs : setPassword k d id password r =
      .ok (if right opened then some (key opened) else if right padded then some (key padded) else none) := by
    unfold setPassword
    rw [if_neg hid, if_neg (by simp [hstd])]
    dsimp only
    rw [convert_i32_i64 hrev.1 hrev.2, ok_bind, hkl, convert_i32_i64 (by rw [hk8]; split <;> omega) (by rw [hk8]; split <;> omega),
      ok_bind, hpad, ok_bind, hown, ok_bind, hpe, hc opened, ok_bind]
    by_cases h : right opened
    · rw [if_pos h, if_pos h]
    · rw [if_neg h, if_neg h]
      exact hc padded
  refine ⟨fun h => ?_, fun h h' => ?_, fun h h' => ?_⟩
  · rw [hs, if_pos h]
  · rw [hs, if_neg h, if_pos h']
  · rw [hs, if_neg h, if_neg h']

/-- C46, the owner password: it is accepted, and gives the key the standard derives from the user password, which is the
key the document is encrypted with unless the user password itself passes for an owner password. Missing: keys of more
than 40 and less than 128 bits, see the counterexample. -/
theorem C46_owner_accepted_partial {k : Crypto} (hk : Lawful k) (s : EncSettings) {id : Bytes} (entry : Nat × Nat) (rnd : Bytes)
    (hid : id ≠ []) (ho : s.ownerPassword.length ≤ 32) (hu : s.userPassword.length ≤ 32)
    (ha : s.algorithm = .rc4 ∨ s.algorithm = .aes) (h0 : 0 ≤ s.keyLength) (h1 : s.keyLength ≤ 40 ∨ s.keyLength = 128) :
    ∃ d key, addEncryption k s id entry rnd = .ok (d, key) ∧
      let userKey := Spec.documentKey k.md5 (Spec.paddedPassword s.userPassword) d.owner id
        (s.permissions % 4294967296).toNat d.revision (s.keyLength.toNat / 8)
      (∀ r, setPassword k d id s.ownerPassword r = .ok (some userKey)) ∧
      (key = userKey ∨
        ∃ x, authOwner k (Spec.paddedPassword s.userPassword) d = .ok x ∧
          checkKey k x id d.owner d.user (s.permissions % 4294967296).toNat d.revision s.keyLength rnd = .ok (some key)) := by
  obtain ⟨d, key, dg, h, hstd, hrev, hlen, hperm, hol, hul, hok, hcmp, hset, hauth⟩ :=
    addEncryption_spec hk s entry rnd hid ho hu ha h0 (by omega)
  have hn16 : min (s.keyLength.toNat / 8) 16 = s.keyLength.toNat / 8 := by omega
  have hkey := comparison_key hk (by omega) hcmp
  rw [hn16] at hkey hcmp
  have hpe : (IntTy.u32.cast s.permissions).toNat = (s.permissions % 4294967296).toNat := rfl
  rw [hpe] at hkey hcmp
  have hn := keyBytes_ok h0 (by omega : s.keyLength ≤ 2147483647)
    (keyDigest_length hk (Spec.paddedPassword s.userPassword) id d.owner (s.permissions % 4294967296).toNat)
  rw [hn16] at hn
  obtain ⟨c, dg', _, hc, hchk⟩ := checkKey_ok hk (Spec.paddedPassword s.userPassword) id d.owner d.user
    (s.permissions % 4294967296).toNat d.revision hn
  rw [hcmp] at hc
  obtain ⟨rfl, rfl⟩ := Prod.mk.inj (Except.ok.inj hc)
  have hr2 : d.revision < 3 ∨ s.keyLength = 128 := by rw [hrev]; split <;> omega
  have hrb : -2147483648 ≤ d.revision ∧ d.revision ≤ 2147483647 := by rw [hrev]; split <;> omega
  refine ⟨d, key, h, ?_, ?_⟩
  · intro r
    unfold setPassword
    rw [if_neg hid, if_neg (by simp [hstd])]
    dsimp only
    rw [convert_i32_i64 hrb.1 hrb.2, ok_bind, hlen, Option.getD_some, convert_i32_i64 (by omega) (by omega), ok_bind,
      (C42_padded_partial _ ho).1, ok_bind, hauth hr2, ok_bind, hperm, hpe, hchk r, if_neg (by omega), if_pos rfl, ok_bind, hkey]
  · have hs := hset rnd
    unfold setPassword at hs
    rw [if_neg hid, if_neg (by simp [hstd])] at hs
    dsimp only at hs
    rw [convert_i32_i64 hrb.1 hrb.2, ok_bind, hlen, Option.getD_some, convert_i32_i64 (by omega) (by omega), ok_bind,
      (C42_padded_partial _ hu).1, ok_bind, hperm, hpe] at hs
    obtain ⟨x, hx, hs⟩ := except_bind_ok hs
    obtain ⟨y, hy, hs⟩ := except_bind_ok hs
    cases y with
    | none =>
      dsimp only at hs
      rw [hchk rnd, if_neg (by omega), if_pos rfl] at hs
      exact .inl (by rw [← hkey]; exact (Option.some.inj (Except.ok.inj hs)).symm)
    | some y =>
      dsimp only at hs
      exact .inr ⟨x, hx, by rw [hy]; exact hs⟩

/-- C46, the entries: for keys of 40 and 128 bits they are the ones of the standard, so that other readers accept the
passwords too.  Missing: other key lengths. -/
theorem C46_entries_partial {k : Crypto} (hk : Lawful k) (s : EncSettings) {id : Bytes} (entry : Nat × Nat) (rnd : Bytes)
    (hid : id ≠ []) (ho : s.ownerPassword.length ≤ 32) (hu : s.userPassword.length ≤ 32)
    (ha : s.algorithm = .rc4 ∨ s.algorithm = .aes) (h1 : s.keyLength = 40 ∨ s.keyLength = 128) :
    ∃ d key, addEncryption k s id entry rnd = .ok (d, key) ∧ d.standard = true ∧ d.length = some s.keyLength ∧
      d.permissions = s.permissions ∧
      let n := s.keyLength.toNat / 8
      let padOwner := Spec.paddedPassword s.ownerPassword
      let padUser := Spec.paddedPassword s.userPassword
      d.revision = (if s.keyLength = 128 then 3 else 2) ∧
      d.owner = Spec.ownerEntry k padOwner padUser d.revision n ∧
      d.user.take (if d.revision ≥ 3 then 16 else 32) =
        Spec.userEntry k (Spec.documentKey k.md5 padUser d.owner id (s.permissions % 4294967296).toNat d.revision n) id d.revision := by
  obtain ⟨d, key, dg, h, hstd, hrev, hlen, hperm, hol, hul, hok, hcmp, hset, hauth⟩ :=
    addEncryption_spec hk s entry rnd hid ho hu ha (by omega) (by omega)
  have hn16 : min (s.keyLength.toNat / 8) 16 = s.keyLength.toNat / 8 := by omega
  rw [hn16] at hcmp
  refine ⟨d, key, h, hstd, hlen, hperm, ?_, ?_, ?_⟩
  · rw [hrev]; rcases h1 with h1 | h1 <;> rw [h1] <;> rfl
  · unfold ownerKey at hok
    rw [if_neg (by rcases ha with h | h <;> simp [h]), (C42_padded_partial _ ho).1, ok_bind, (C42_padded_partial _ hu).1, ok_bind] at hok
    have hpl := (C42_padded_partial _ hu).2
    unfold Spec.ownerEntry
    rcases h1 with h1 | h1
    · have hr : d.revision = 2 := by rw [hrev, h1]; rfl
      rw [hr] at hok
      simp only [show ¬ ((2 : Int) ≥ 3) by decide, if_false] at hok
      rw [hr, if_neg (by omega), h1]
      have e : safeConvert .u64 .i32 5 = .ok 5 := by decide +kernel
      rw [e, ok_bind, computeRC4_ok k (by rw [hk.md5_length]; decide) (by decide) (by omega), ok_bind] at hok
      exact (Except.ok.inj hok).symm
    · have hr : d.revision = 3 := by rw [hrev, h1]; rfl
      rw [hr, h1] at hok
      simp only [ge_iff_le, le_refl, if_true] at hok
      rw [hr, if_pos (by omega), h1]
      have e : safeConvert .u64 .i32 ((128 : Int).tdiv 8) = .ok 16 := by decide +kernel
      have hl2 : (repeatFn k.md5 50 (k.md5 (Spec.paddedPassword s.ownerPassword))).length = 16 :=
        repeatFn_inv (P := fun x : Bytes => x.length = 16) (fun x hx => hk.md5_length x) 50 _ (hk.md5_length _)
      rw [e, ok_bind, show (16 : Int).toNat = (repeatFn k.md5 50 (k.md5 (Spec.paddedPassword s.ownerPassword))).length from hl2.symm,
        rc4_twenty, rc4Rounds_fold hk (by omega) _ _ (by omega)] at hok
      rw [← repeatFn_eq, List.take_of_length_le (by rw [hl2]; decide)]
      exact (Except.ok.inj hok).symm
  · have hpe : (IntTy.u32.cast s.permissions).toNat = (s.permissions % 4294967296).toNat := rfl
    rw [hpe] at hcmp
    refine comparison_standard hk ?_ hcmp
    rcases h1 with h1 | h1
    · exact .inr ⟨by rw [hrev, h1]; decide, by rw [h1]; rfl⟩
    · exact .inl ⟨by rw [hrev, h1]; decide, by rw [h1]; rfl⟩

/-- Longer keys are not refused but read beyond the digest. -/
theorem C46_long_key_counterexample {k : Crypto} (hk : Lawful k) (s : EncSettings) {id : Bytes} (entry : Nat × Nat) (rnd : Bytes)
    (hid : id ≠ []) (ho : s.ownerPassword.length ≤ 32) (hu : s.userPassword.length ≤ 32)
    (ha : s.algorithm = .rc4 ∨ s.algorithm = .aes) (h1 : 136 ≤ s.keyLength) (h2 : s.keyLength ≤ 2147483647) :
    addEncryption k s id entry rnd = .error .ub := by
  unfold addEncryption ownerKey
  rw [if_neg hid]
  dsimp only
  rw [if_neg (by rcases ha with h | h <;> simp [h]), (C42_padded_partial _ ho).1, ok_bind, (C42_padded_partial _ hu).1, ok_bind]
  obtain ⟨m, hm⟩ := Int.eq_ofNat_of_zero_le (by omega : 0 ≤ s.keyLength)
  have e : ((m : Int).tdiv 8) = ((m / 8 : Nat) : Int) := by
    rw [Int.tdiv_eq_ediv_of_nonneg (by omega)]; omega
  have hl2 : (repeatFn k.md5 50 (k.md5 (Spec.paddedPassword s.ownerPassword))).length = 16 :=
    repeatFn_inv (P := fun x : Bytes => x.length = 16) (fun x hx => hk.md5_length x) 50 _ (hk.md5_length _)
  rw [if_pos (by omega : s.keyLength > 40)]
  simp only [ge_iff_le, le_refl, if_true]
  rw [hm, e, convert_u64_i32 (by omega), ok_bind, Int.toNat_natCast]
  rw [computeRC4, convert_length (by omega), ok_bind, if_pos (by rw [hl2]; omega)]
  simp only [bind, Except.bind]

end VPdf
