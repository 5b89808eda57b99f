import Verif.Lemmas.Encryption
import Verif.Spec.Digests

namespace VPdf
open Spec (Lawful)

theorem padTruncate_ok {p : Bytes} (h : p.length ≤ 32) : padTruncate p = .ok (p ++ passwordPad.take (32 - p.length)) := by
  have hl : passwordPad.length = 32 := rfl
  have e : (2 ^ 64 + 32 - p.length) % 2 ^ 64 = 32 - p.length ∨ p.length = 0 := by omega
  unfold padTruncate
  dsimp only
  have hc : (2 ^ 64 + 32 - p.length) % 2 ^ 64 = 32 - p.length := by omega
  rw [hc, if_neg (by omega), List.take_of_length_le (by omega)]

theorem padTruncate_long {p : Bytes} (h : 32 < p.length) : padTruncate p = .error .ub := by
  have hl : passwordPad.length = 32 := rfl
  unfold padTruncate
  dsimp only
  rw [if_pos (by omega)]

theorem padTruncate_length {p q : Bytes} (h : padTruncate p = .ok q) : q.length = 32 := by
  by_cases hp : p.length ≤ 32
  · rw [padTruncate_ok hp] at h
    rw [← Except.ok.inj h]
    have hl : passwordPad.length = 32 := rfl
    simp only [List.length_append, List.length_take, hl]; omega
  · rw [padTruncate_long (by omega)] at h; cases h

/-! ### Rounds of RC4 -/

theorem rc4Rounds_append (k : Crypto) (key : Bytes) : ∀ (is js : List Nat) (d : Bytes),
    rc4Rounds k key (is ++ js) d = (rc4Rounds k key is d >>= rc4Rounds k key js)
  | [], _, _ => rfl
  | i :: is, js, d => by
    simp only [List.cons_append, rc4Rounds]
    cases e : computeRC4 k (xorKey key i) (xorKey key i).length d with
    | error f => rfl
    | ok a => simp only [ok_bind]; exact rc4Rounds_append k key is js a

theorem rc4Rounds_length {k : Crypto} (hk : Lawful k) {key : Bytes} {is : List Nat} {d c : Bytes}
    (h : rc4Rounds k key is d = .ok c) : c.length = d.length := by
  induction is generalizing d with
  | nil => rw [← Except.ok.inj h]
  | cons i is ih =>
    rw [rc4Rounds] at h
    obtain ⟨a, ha, h⟩ := except_bind_ok h
    rw [ih h, computeRC4_length hk ha]

/-- The rounds in reverse order undo the rounds. -/
theorem rc4Rounds_reverse {k : Crypto} (hk : Lawful k) {key : Bytes} {is : List Nat} {d c : Bytes}
    (h : rc4Rounds k key is d = .ok c) : rc4Rounds k key is.reverse c = .ok d := by
  induction is generalizing d with
  | nil => rw [← Except.ok.inj h]; rfl
  | cons i is ih =>
    rw [rc4Rounds] at h
    obtain ⟨a, ha, h⟩ := except_bind_ok h
    rw [List.reverse_cons, rc4Rounds_append, ih h, ok_bind, rc4Rounds, computeRC4_twice hk ha, ok_bind]
    rfl

theorem rc4Rounds_ok {k : Crypto} (hk : Lawful k) {key : Bytes} (hkey : key.length < 2147483647) : ∀ (is : List Nat) (d : Bytes),
    d.length < 2147483647 → ∃ c, rc4Rounds k key is d = .ok c
  | [], d, _ => ⟨d, rfl⟩
  | i :: is, d, hd => by
    rw [rc4Rounds]
    have h := computeRC4_ok k (key := xorKey key i) (Nat.le_refl _) (by rw [xorKey_length]; exact hkey) hd
    rw [h, ok_bind]
    exact rc4Rounds_ok hk hkey is _ (by rw [computeRC4_length hk h]; exact hd)

/-! ### Digests -/

theorem keyDigest_length {k : Crypto} (hk : Lawful k) (i d o : Bytes) (p : Nat) : (keyDigest k i d o p).length = 16 :=
  hk.md5_length _

theorem digestRound_length {k : Crypto} (hk : Lawful k) {n : Nat} (hn : n ≤ 16) {d : Bytes} (hd : d.length = 16) :
    (digestRound k n d).length = 16 := by
  simp only [digestRound, List.length_append, List.length_take, List.length_drop, hk.md5_length, hd]; omega

theorem repeatFn_inv {α : Type} {f : α → α} {P : α → Prop} (h : ∀ a, P a → P (f a)) : ∀ (n : Nat) (a : α), P a → P (repeatFn f n a)
  | 0, _, ha => ha
  | n + 1, a, ha => repeatFn_inv h n (f a) (h a ha)

theorem repeatFn_congr {α : Type} {f g : α → α} {P : α → Prop} (hp : ∀ a, P a → P (f a)) (h : ∀ a, P a → f a = g a) :
    ∀ (n : Nat) (a : α), P a → repeatFn f n a = repeatFn g n a
  | 0, _, _ => rfl
  | n + 1, a, ha => by
    rw [repeatFn, repeatFn, ← h a ha]
    exact repeatFn_congr hp h n (f a) (hp a ha)

/-- With whole digests the in-place rounds are plain repetitions. -/
theorem digestRound_whole {k : Crypto} (hk : Lawful k) {d : Bytes} (hd : d.length = 16) : digestRound k 16 d = k.md5 d := by
  unfold digestRound
  rw [List.take_of_length_le (l := d) (by omega), List.take_of_length_le (by rw [hk.md5_length]),
    List.drop_of_length_le (by omega), List.append_nil]

theorem keyBytes_ok {keyLength : Int} (h0 : 0 ≤ keyLength) (h1 : keyLength ≤ 2147483647) {digest : Bytes} (hd : digest.length = 16) :
    keyBytes keyLength digest = .ok (min (keyLength.toNat / 8) 16) := by
  obtain ⟨n, rfl⟩ := Int.eq_ofNat_of_zero_le h0
  have e : ((n : Int).tdiv 8) = ((n / 8 : Nat) : Int) := by
    rw [Int.tdiv_eq_ediv_of_nonneg (by omega)]; omega
  unfold keyBytes
  rw [e, convert_u64_i32 (by omega), ok_bind, hd]
  rfl

theorem keyBytes_le {keyLength : Int} {digest : Bytes} {n : Nat} (h : keyBytes keyLength digest = .ok n) : n ≤ digest.length := by
  unfold keyBytes at h
  obtain ⟨v, _, h⟩ := except_bind_ok h
  rw [← Except.ok.inj h]
  exact Nat.min_le_right _ _

theorem compareDataV3_ok {k : Crypto} (hk : Lawful k) {digest : Bytes} (hd : digest.length = 16) (id : Bytes) {keyLength : Int}
    {n : Nat} (hn : keyBytes keyLength digest = .ok n) :
    ∃ c d, c.length = 16 ∧ d.length = 16 ∧ d = repeatFn (digestRound k n) 50 digest ∧
      (computeRC4 k d d.length (k.md5 (passwordPad ++ id)) >>= rc4Rounds k d ((List.range 19).map (· + 1))) = .ok c ∧
      ∀ rnd, compareDataV3 k digest id keyLength rnd = .ok (c ++ rnd, d) := by
  have hle : n ≤ 16 := by have := keyBytes_le hn; omega
  have hdl : (repeatFn (digestRound k n) 50 digest).length = 16 :=
    repeatFn_inv (P := fun x : Bytes => x.length = 16) (fun a ha => digestRound_length hk hle ha) 50 _ hd
  generalize hg : repeatFn (digestRound k n) 50 digest = d at hdl
  have hr := computeRC4_ok k (key := d) (n := d.length) (data := k.md5 (passwordPad ++ id)) (Nat.le_refl _) (by omega)
    (by rw [hk.md5_length]; omega)
  obtain ⟨c, hc⟩ := rc4Rounds_ok hk (key := d) (by omega) ((List.range 19).map (· + 1)) _
    (by rw [computeRC4_length hk hr, hk.md5_length]; omega)
  refine ⟨c, d, ?_, hdl, rfl, ?_, ?_⟩
  · rw [rc4Rounds_length hk hc, computeRC4_length hk hr, hk.md5_length]
  · rw [hr, ok_bind, hc]
  · intro rnd
    unfold compareDataV3
    rw [hn, ok_bind]
    dsimp only
    rw [hg, hr, ok_bind, hc, ok_bind]

/-- The compared part of the comparison value and the digest left behind. -/
def comparison (k : Crypto) (digest id : Bytes) (revision : Int) (n : Nat) : Res (Bytes × Bytes) :=
  if revision ≥ 3 then do
    let d := repeatFn (digestRound k n) 50 digest
    let c ← computeRC4 k d d.length (k.md5 (passwordPad ++ id))
    let c ← rc4Rounds k d ((List.range 19).map (· + 1)) c
    .ok (c, d)
  else do
    let c ← computeRC4 k digest 5 passwordPad
    .ok (c, digest)

/-- The number of bytes of the `U` entry that are compared. -/
def compared (revision : Int) : Nat := if revision ≥ 3 then 16 else 32

/-- The compared part and the digest do not depend on the random bytes. -/
theorem compareData_ok {k : Crypto} (hk : Lawful k) {digest : Bytes} (hd : digest.length = 16) (id : Bytes) (revision : Int)
    {keyLength : Int} {n : Nat} (hn : keyBytes keyLength digest = .ok n) :
    ∃ c d, c.length = compared revision ∧ comparison k digest id revision n = .ok (c, d) ∧
      ∀ rnd, compareData k digest id revision keyLength rnd = .ok (c ++ (if revision ≥ 3 then rnd else []), d) := by
  unfold compareData comparison compared
  by_cases hr : revision ≥ 3
  · simp only [if_pos hr]
    obtain ⟨c, d, hc, _, he, h', h⟩ := compareDataV3_ok hk hd id hn
    refine ⟨c, d, hc, ?_, h⟩
    obtain ⟨a, ha, h'⟩ := except_bind_ok h'
    rw [← he, ha, ok_bind, h', ok_bind]
  · simp only [if_neg hr]
    have h := computeRC4_ok k (key := digest) (n := 5) (data := passwordPad) (by omega) (by omega) (by decide)
    refine ⟨xorBytes passwordPad (k.keystream (digest.take 5) passwordPad.length), digest, ?_, ?_, fun rnd => ?_⟩
    · exact computeRC4_length hk h
    · rw [h, ok_bind]
    · rw [h, ok_bind, List.append_nil]

/-- The check of a password, in terms of the comparison value of its input. -/
theorem checkKey_ok {k : Crypto} (hk : Lawful k) (input id o u : Bytes) (p : Nat) (revision : Int) {keyLength : Int} {n : Nat}
    (hn : keyBytes keyLength (keyDigest k input id o p) = .ok n) :
    ∃ c d, c.length = compared revision ∧ comparison k (keyDigest k input id o p) id revision n = .ok (c, d) ∧
      ∀ rnd, checkKey k input id o u p revision keyLength rnd =
        if u.length < compared revision then .error .ub
        else .ok (if c = u.take (compared revision) then some (d.take n) else none) := by
  have hd := keyDigest_length hk input id o p
  obtain ⟨c, d, hc, he, h⟩ := compareData_ok hk hd id revision hn
  refine ⟨c, d, hc, he, ?_⟩
  intro rnd
  unfold checkKey
  dsimp only
  rw [hn, ok_bind, h rnd, ok_bind]
  have e : (if revision ≥ 3 then 16 else 32) = compared revision := rfl
  dsimp only
  rw [e]
  by_cases hu : u.length < compared revision
  · rw [if_pos (Or.inr hu), if_pos hu]
  · rw [if_neg hu, if_neg (by rw [List.length_append, hc]; omega), List.take_append_of_le_length (by omega),
      List.take_of_length_le (by omega)]
    by_cases hcu : c = u.take (compared revision)
    · rw [if_pos hcu, if_pos hcu]
    · rw [if_neg hcu, if_neg hcu]

/-- The random bytes do not decide about a password. -/
theorem checkKey_rnd {k : Crypto} (hk : Lawful k) (input id o u : Bytes) (p : Nat) (revision keyLength : Int) (r r' : Bytes) :
    checkKey k input id o u p revision keyLength r = checkKey k input id o u p revision keyLength r' := by
  cases hn : keyBytes keyLength (keyDigest k input id o p) with
  | error f =>
    unfold checkKey
    dsimp only
    rw [hn]
    simp only [bind, Except.bind]
  | ok n =>
    obtain ⟨c, d, _, _, h⟩ := checkKey_ok hk input id o u p revision hn
    rw [h r, h r']

theorem setPassword_rnd {k : Crypto} (hk : Lawful k) (d : EncDict) (id pw r r' : Bytes) :
    setPassword k d id pw r = setPassword k d id pw r' := by
  unfold setPassword
  simp only [checkKey_rnd hk _ _ _ _ _ _ _ r r']

theorem fileKey_rnd {k : Crypto} (hk : Lawful k) (F : SecureFile) (d : EncDict) (r r' : Bytes) :
    fileKey k F d r = fileKey k F d r' := by
  unfold fileKey
  rw [setPassword_rnd hk _ _ _ r r']

/-! ### The key of the standard -/

theorem repeatFn_comm {α : Type} (f : α → α) : ∀ (n : Nat) (a : α), repeatFn f n (f a) = f (repeatFn f n a)
  | 0, _ => rfl
  | n + 1, a => by rw [repeatFn, repeatFn_comm f n (f a)]; rfl

theorem repeatFn_eq {α : Type} (f : α → α) : ∀ (n : Nat) (a : α), repeatFn f n a = Nat.repeat f n a
  | 0, _ => rfl
  | n + 1, a => by rw [repeatFn, repeatFn_comm, repeatFn_eq f n a]; rfl

theorem digestRounds_take {k : Crypto} (hk : Lawful k) {n : Nat} (hn : n ≤ 16) : ∀ (m : Nat) (x y : Bytes),
    x.take n = y.take n →
      (repeatFn (digestRound k n) m x).take n = (repeatFn (fun z => k.md5 (z.take n)) m y).take n
  | 0, _, _, h => h
  | m + 1, x, y, h => by
    rw [repeatFn, repeatFn]
    refine digestRounds_take hk hn m _ _ ?_
    unfold digestRound
    rw [List.take_append_of_le_length (by rw [List.length_take, hk.md5_length]; omega), List.take_take, Nat.min_self, h]

theorem ofNat_mod256 (n : Nat) : UInt8.ofNat (n % 256) = UInt8.ofNat n := by
  apply UInt8.toNat.inj
  simp

theorem lowBytes_four (p : Nat) : Spec.lowBytes 4 p =
    [UInt8.ofNat p, UInt8.ofNat (p >>> 8), UInt8.ofNat (p >>> 16), UInt8.ofNat (p >>> 24)] := by
  simp only [Spec.lowBytes, Nat.div_div_eq_div_mul, Nat.shiftRight_eq_div_pow, ofNat_mod256]

/-- The key that is kept is the one of Algorithm 2. -/
theorem comparison_key {k : Crypto} (hk : Lawful k) {input id o : Bytes} {p : Nat} {revision : Int} {n : Nat} (hn : n ≤ 16)
    {c d : Bytes} (h : comparison k (keyDigest k input id o p) id revision n = .ok (c, d)) :
    d.take n = Spec.documentKey k.md5 input o id p revision n := by
  unfold comparison at h
  unfold Spec.documentKey
  dsimp only
  rw [lowBytes_four]
  by_cases hr : revision ≥ 3
  · rw [if_pos hr] at h
    dsimp only at h
    obtain ⟨a, _, h⟩ := except_bind_ok h
    obtain ⟨b, _, h⟩ := except_bind_ok h
    have h := Except.ok.inj h
    rw [if_pos hr, ← repeatFn_eq, ← (Prod.mk.inj h).2]
    exact digestRounds_take hk hn 50 _ _ rfl
  · rw [if_neg hr] at h
    obtain ⟨a, _, h⟩ := except_bind_ok h
    have h := Except.ok.inj h
    rw [if_neg hr, ← (Prod.mk.inj h).2]
    rfl

end VPdf
