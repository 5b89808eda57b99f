import Verif.Lemmas.Passwords

namespace VPdf
open Spec (Lawful)

theorem range19_succ : (List.range 19).map (· + 1) = [1, 2, 3, 4, 5, 6, 7, 8, 9, 10, 11, 12, 13, 14, 15, 16, 17, 18, 19] := rfl

theorem range20 : List.range 20 = 0 :: (List.range 19).map (· + 1) := rfl

/-- One RC4 and 19 rounds are 20 rounds. -/
theorem rc4_twenty (k : Crypto) (key d : Bytes) :
    (computeRC4 k key key.length d >>= rc4Rounds k key ((List.range 19).map (· + 1))) = rc4Rounds k key (List.range 20) d := by
  rw [range20, rc4Rounds, xorKey_zero]

theorem rc4Rounds_fold {k : Crypto} (hk : Lawful k) {key : Bytes} (hkey : key.length < 2147483647) (is : List Nat) (d : Bytes)
    (hd : d.length < 2147483647) :
    rc4Rounds k key is d = .ok (is.foldl (fun x i => Spec.rc4 k (key.map (· ^^^ UInt8.ofNat i)) x) d) := by
  induction is generalizing d with
  | nil => rfl
  | cons i is ih =>
    have h := computeRC4_ok k (key := xorKey key i) (Nat.le_refl _) (by rw [xorKey_length]; exact hkey) hd
    have hl := computeRC4_length hk h
    rw [rc4Rounds, h, ok_bind, ih _ (by rw [hl]; exact hd), List.foldl_cons, List.take_length]
    rfl

/-- The owner entry: it exists, has 32 bytes and is undone by the owner's password if the key has all 16 bytes. -/
theorem ownerKey_ok {k : Crypto} (hk : Lawful k) {ow us po pu : Bytes} (ho : padTruncate ow = .ok po) (hu : padTruncate us = .ok pu)
    {alg : Algorithm} (ha : alg = .rc4 ∨ alg = .aes) {keyLength revision : Int} (h0 : 0 ≤ keyLength) (h1 : keyLength ≤ 128)
    (d : EncDict) (hr : d.revision = revision) (hl : d.length = some keyLength) :
    ∃ o, ownerKey k ow us alg keyLength revision = .ok o ∧ o.length = 32 ∧
      (revision < 3 ∨ keyLength = 128 → authOwner k po { d with owner := o } = .ok pu) := by
  have hpu := padTruncate_length hu
  have hna : ¬ (alg = .undefined ∨ alg = .none) := by rcases ha with rfl | rfl <;> simp
  obtain ⟨m, rfl⟩ := Int.eq_ofNat_of_zero_le h0
  have e : ((m : Int).tdiv 8) = ((m / 8 : Nat) : Int) := by
    rw [Int.tdiv_eq_ediv_of_nonneg (by omega)]; omega
  unfold ownerKey
  rw [if_neg hna, ho, ok_bind]
  dsimp only
  rw [hu, ok_bind]
  by_cases h3 : revision ≥ 3
  · rw [if_pos h3, if_pos h3, e, convert_u64_i32 (by omega), ok_bind]
    have hc : (repeatFn k.md5 50 (k.md5 po)).length = 16 :=
      repeatFn_inv (P := fun x : Bytes => x.length = 16) (fun a _ => hk.md5_length a) 50 _ (hk.md5_length _)
    generalize hg : repeatFn k.md5 50 (k.md5 po) = c at hc
    have hf := computeRC4_ok k (key := c) (n := ((m / 8 : Nat) : Int).toNat) (data := pu) (by omega) (by omega) (by omega)
    rw [hf, ok_bind]
    simp only [if_pos h3]
    have hfl := computeRC4_length hk hf
    obtain ⟨o, ho'⟩ := rc4Rounds_ok hk (key := c) (by omega) ((List.range 19).map (· + 1))
      (xorBytes pu (k.keystream (c.take ((m / 8 : Nat) : Int).toNat) pu.length)) (by omega)
    refine ⟨o, ho', ?_, ?_⟩
    · rw [rc4Rounds_length hk ho', hfl, hpu]
    · intro hor
      have hm : m = 128 := by omega
      subst hm
      have hn16 : (((128 / 8 : Nat) : Int).toNat) = c.length := by rw [hc]; rfl
      rw [hn16] at hf ho'
      have h20 : rc4Rounds k c (List.range 20) pu = .ok o := by
        rw [← rc4_twenty, hf, ok_bind]; exact ho'
      have hback := rc4Rounds_reverse hk h20
      unfold authOwner
      dsimp only
      rw [hr, hl, if_pos h3]
      simp only [Option.getD_some]
      rw [e, safeConvert_u64 (by omega), ok_bind]
      have hmin : min (((128 / 8 : Nat) : Int).toNat) (k.md5 po).length = 16 := by rw [hk.md5_length]; rfl
      rw [hmin, repeatFn_congr (g := k.md5) (P := fun x : Bytes => x.length = 16)
        (fun a ha => digestRound_length hk (Nat.le_refl _) ha) (fun a ha => digestRound_whole hk ha) 50 _ (hk.md5_length _), hg]
      exact hback
  · rw [if_neg h3, if_neg h3, show (5 : Int) = ((5 : Nat) : Int) from rfl, convert_u64_i32 (by omega), ok_bind]
    have hf := computeRC4_ok k (key := k.md5 po) (n := ((5 : Nat) : Int).toNat) (data := pu) (by rw [hk.md5_length]; decide)
      (by decide) (by omega)
    rw [hf, ok_bind]
    simp only [if_neg h3]
    refine ⟨_, rfl, ?_, ?_⟩
    · rw [computeRC4_length hk hf, hpu]
    · intro _
      unfold authOwner
      dsimp only
      rw [hr, if_neg h3]
      exact computeRC4_twice hk hf

/-- The user entry is accepted for the padded password it was made from. -/
theorem userKey_ok {k : Crypto} (hk : Lawful k) {us pu : Bytes} (hu : padTruncate us = .ok pu) {alg : Algorithm}
    (ha : alg = .rc4 ∨ alg = .aes) (id o : Bytes) (p : Nat) {keyLength : Int} (revision : Int) (h0 : 0 ≤ keyLength)
    (h1 : keyLength ≤ 128) (rnd : Bytes) :
    ∃ u, userKey k id us o alg keyLength p revision rnd = .ok u ∧ compared revision ≤ u.length ∧
      ∃ d, comparison k (keyDigest k pu id o p) id revision (min (keyLength.toNat / 8) 16) = .ok (u.take (compared revision), d) ∧
      ∀ r, checkKey k pu id o u p revision keyLength r = .ok (some (d.take (min (keyLength.toNat / 8) 16))) := by
  have hna : ¬ (alg = .undefined ∨ alg = .none) := by rcases ha with rfl | rfl <;> simp
  have hd := keyDigest_length hk pu id o p
  have hn := keyBytes_ok h0 (by omega) hd
  obtain ⟨c, d, hc, he, h⟩ := compareData_ok hk hd id revision hn
  have htake : (c ++ (if revision ≥ 3 then rnd else [])).take (compared revision) = c := by
    rw [List.take_append_of_le_length (by omega), List.take_of_length_le (by omega)]
  have hlen : compared revision ≤ (c ++ (if revision ≥ 3 then rnd else [])).length := by
    rw [List.length_append]; omega
  refine ⟨c ++ (if revision ≥ 3 then rnd else []), ?_, hlen, d, ?_, ?_⟩
  · unfold userKey
    rw [if_neg hna, hu, ok_bind, h rnd, ok_bind]
  · rw [htake]; exact he
  · intro r
    obtain ⟨c', d', hc', he', h'⟩ := checkKey_ok hk pu id o (c ++ (if revision ≥ 3 then rnd else [])) p revision hn
    rw [he] at he'
    obtain ⟨rfl, rfl⟩ := Prod.mk.inj (Except.ok.inj he')
    rw [h' r, if_neg (by omega), htake, if_pos rfl]

theorem authOwner_ok {k : Crypto} (hk : Lawful k) (pad : Bytes) (d : EncDict) (h0 : 0 ≤ d.length.getD 40)
    (h1 : d.length.getD 40 ≤ 2147483647) (ho : d.owner.length < 2147483647) : ∃ x, authOwner k pad d = .ok x := by
  unfold authOwner
  dsimp only
  by_cases h3 : d.revision ≥ 3
  · rw [if_pos h3]
    obtain ⟨m, hm⟩ := Int.eq_ofNat_of_zero_le h0
    have e : ((m : Int).tdiv 8) = ((m / 8 : Nat) : Int) := by
      rw [Int.tdiv_eq_ediv_of_nonneg (by omega)]; omega
    rw [hm, e, safeConvert_u64 (by omega), ok_bind]
    refine rc4Rounds_ok hk ?_ _ _ ho
    rw [repeatFn_inv (P := fun x : Bytes => x.length = 16)
      (fun a ha => digestRound_length hk (by rw [hk.md5_length]; exact Nat.min_le_right _ _) ha) 50 _ (hk.md5_length _)]
    omega
  · rw [if_neg h3]
    exact ⟨_, computeRC4_ok k (by rw [hk.md5_length]; omega) (by omega) ho⟩

end VPdf
