import Verif.Lemmas.Parse
import Verif.Spec.Lengths
/-
  Termination of the parser of objects on input without negative lengths of streams.
-/
namespace VPdf
open Spec

theorem sep_append {a b : Bytes} (ha : Sep a) (hb : Sep b) : Sep (a ++ b) := by
  induction ha with
  | nil => exact hb
  | ws c s h _ ih => exact .ws c _ h ih
  | comment body c s h1 h2 _ ih =>
    have := Sep.comment body c _ h1 h2 ih
    simpa using this

theorem bind_ok {α β : Type} {x : Res α} {f : α → Res β} {b : β} (h : (x >>= f) = .ok b) :
    ∃ a, x = .ok a ∧ f a = .ok b := by
  cases x with
  | error e => cases h
  | ok a => exact ⟨a, rfl, h⟩

/-- `NoNegativeLength` holds of the rest of an input. -/
theorem noNegative_suffix {r s : Bytes} (h : NoNegativeLength s) (hr : r <:+ s) : NoNegativeLength r := by
  obtain ⟨p, rfl⟩ := hr
  intro a k sep b he
  exact h (p ++ a) k sep b (by rw [he]; simp)

/-- The text has no minus sign behind the first 7 bytes (the header of a file has one at its fifth byte). -/
theorem noNegative_of_drop {s : Bytes} (h : ∀ c ∈ s.drop 7, c ≠ 45) : NoNegativeLength s := by
  intro a k sep b he hk hs
  exfalso
  have hl : ∀ n k, NameBody n k → n.length ≤ k.length := by
    intro n k hn
    induction hn with
    | nil => simp
    | regular c n s _ _ _ ih => simp; omega
    | code x y a b n s _ _ _ ih => simp; omega
  have := hl _ _ hk
  have h6 : 6 ≤ k.length := by simpa using this
  refine h 45 ?_ rfl
  rw [he, show a ++ 47 :: (k ++ sep ++ 45 :: b) = (a ++ 47 :: (k ++ sep)) ++ 45 :: b by simp, List.drop_append,
    show 7 - (a ++ 47 :: (k ++ sep)).length = 0 by simp; omega]
  simp

/-! ### from tokens back to the text -/

/-- The value of one hexadecimal digit is below 16. -/
theorem strtolUnsigned_short {l : Bytes} (hl : l.length ≤ 1) {n : Nat} (h : strtolUnsigned 16 l = .ok n) : n < 16 := by
  match l with
  | [] => cases h
  | [z] =>
    have e : dropHexPrefix [z] = [z] := by rw [dropHexPrefix.eq_def]; split <;> simp_all
    unfold strtolUnsigned at h
    simp only [if_true, e] at h
    split at h
    · rename_i hz
      cases h
      simp only [scanDigits, hz, if_true]
      omega
    · cases h

theorem hexVal_digit (c : Byte) : (Spec.hexVal c).isSome = true ∨ 16 ≤ digitVal c := by
  revert c; apply forall_byte; decide +kernel

/-- A byte above 15 is read from two hexadecimal digits only. -/
theorem parseByte_inv {x y v : Byte} (h : parseByte 16 [x, y] = .ok v) (hv : 16 ≤ v.toNat) :
    ∃ a b, Spec.hexVal x = some a ∧ Spec.hexVal y = some b := by
  unfold parseByte at h
  obtain ⟨i, h1, h⟩ := bind_ok h
  unfold stoi at h1
  obtain ⟨j, h2, h1⟩ := bind_ok h1
  have hij : j = i := by
    split at h1
    · cases h1; rfl
    · cases h1
  subst hij
  have hj : 16 ≤ j := by
    unfold toUChar at h
    split at h
    · rename_i hr
      cases h
      rw [UInt8.toNat_ofNat'] at hv
      omega
    · cases h
  have key : strtolUnsigned 16 [x, y] = .ok j.toNat := by
    unfold strtolInt at h2
    have small : ∀ l : Bytes, l.length ≤ 1 → ∀ n, strtolUnsigned 16 l = .ok n → (n : Int) < 16 := fun l hl n hn => by
      have := strtolUnsigned_short hl hn; omega
    have hlen : ∀ l, l = List.dropWhile isCSpace [x, y] → l = [x, y] ∨ l.length ≤ 1 := by
      intro l hl
      rw [List.dropWhile_cons] at hl
      split at hl
      · exact Or.inr (by rw [hl]; exact (List.dropWhile_suffix isCSpace).length_le)
      · exact Or.inl hl
    split at h2
    · rename_i rest he
      cases hu : strtolUnsigned 16 rest with
      | error e => rw [hu] at h2; cases h2
      | ok n => rw [hu] at h2; cases h2; dsimp only at hj; omega
    · rename_i rest he
      cases hu : strtolUnsigned 16 rest with
      | error e => rw [hu] at h2; cases h2
      | ok n =>
        rw [hu] at h2; cases h2
        have : rest.length ≤ 1 := by
          have := congrArg List.length he
          have h3 := (List.dropWhile_suffix isCSpace (l := [x, y])).length_le
          simp at this h3; omega
        have := small rest this n hu
        dsimp only at hj; omega
    · rename_i hne1 hne2
      cases hu : strtolUnsigned 16 (List.dropWhile isCSpace [x, y]) with
      | error e => rw [hu] at h2; cases h2
      | ok n =>
        rw [hu] at h2; cases h2
        rcases hlen _ rfl with h3 | h3
        · rw [h3] at hu; rw [hu]; rfl
        · have := small _ h3 n hu; dsimp only at hj; omega
  have e : dropHexPrefix [x, y] = [x, y] := by rw [dropHexPrefix.eq_def]; split <;> simp_all
  unfold strtolUnsigned at key
  simp only [if_true, e] at key
  split at key
  · rename_i hx
    rcases hexVal_digit x with h3 | h3
    · rcases hexVal_digit y with h4 | h4
      · obtain ⟨a, ha⟩ := Option.isSome_iff_exists.mp h3
        obtain ⟨b, hb⟩ := Option.isSome_iff_exists.mp h4
        exact ⟨a, b, ha, hb⟩
      · exfalso
        simp only [scanDigits, hx, if_true, if_neg (show ¬ digitVal y < 16 by omega)] at key
        injection key with key
        omega
    · omega
  · cases key

theorem parseByte_inv1 {x v : Byte} (h : parseByte 16 [x] = .ok v) : v.toNat < 16 := by
  have key : ∀ x : Byte, (match parseByte 16 [x] with | .ok v => decide (v.toNat < 16) | .error _ => true) = true := by
    apply forall_byte; decide +kernel
  have := key x
  rw [h] at this
  simpa using this

/-- The text of a name of printable characters. -/
theorem readName_inv (s : Bytes) : ∀ {n r : Bytes}, readName s = .ok (n, r) → (∀ c ∈ n, 16 ≤ c.toNat) →
    ∃ k, s = k ++ r ∧ NameBody n k ∧ ∀ c ∈ r.head?, isRegular c = false := by
  induction s using readName.induct with
  | case1 => intro n r h _; rw [readName.eq_def] at h; cases h; exact ⟨[], rfl, .nil, by simp⟩
  | case2 c hc he =>
    intro n r h hn
    rw [readName.eq_def] at h
    simp only [hc, he, if_true] at h
    have : parseByte 16 [] = .error .invalidArgument := rfl
    rw [this] at h; cases h
  | case3 c hc he x =>
    intro n r h hn
    rw [readName.eq_def] at h
    simp only [hc, he, if_true] at h
    obtain ⟨v, hv, h⟩ := bind_ok h
    cases h
    have := hn v (by simp)
    have := parseByte_inv1 hv
    omega
  | case4 c hc he x y rest ih =>
    intro n r h hn
    rw [readName.eq_def] at h
    simp only [hc, he, if_true] at h
    obtain ⟨v, hv, h⟩ := bind_ok h
    obtain ⟨⟨m, q⟩, hm, h⟩ := bind_ok h
    cases h
    obtain ⟨k, rfl, hk, hr⟩ := ih hm (fun c hc => hn c (by simp [hc]))
    obtain ⟨a, b, ha, hb⟩ := parseByte_inv hv (hn v (by simp))
    rw [parseByte_hexpair ha hb] at hv
    cases hv
    have : c = 35 := by simpa using he
    subst this
    exact ⟨35 :: x :: y :: k, rfl, .code x y a b m k ha hb hk, hr⟩
  | case5 c rest hc he ih =>
    intro n r h hn
    rw [readName.eq_def] at h
    simp only [hc, he, if_true] at h
    obtain ⟨⟨m, q⟩, hm, h⟩ := bind_ok h
    cases h
    obtain ⟨k, rfl, hk, hr⟩ := ih hm (fun c hc => hn c (by simp [hc]))
    have hreg : ∀ c : Byte, isRegular c = true → c ∉ whiteSpace ++ delimiters := by apply forall_byte; decide +kernel
    exact ⟨c :: k, rfl, .regular c m k (hreg c hc) (by simpa using he) hk, hr⟩
  | case6 c rest hc =>
    intro n r h hn
    rw [readName.eq_def] at h
    simp only [hc] at h
    cases h; exact ⟨[], rfl, .nil, by simpa using hc⟩

/-- What `ReadToken` skips are separators. -/
theorem skipBlank_sep : ∀ (b : Bool) (s : Bytes) {c : Byte} {rest : Bytes}, skipBlank b s = c :: rest →
    ∃ p, s = p ++ c :: rest ∧ match b with
      | false => Sep p
      | true => ∃ body e p', p = body ++ e :: p' ∧ (∀ x ∈ body, x ≠ 13 ∧ x ≠ 10) ∧ (e = 13 ∨ e = 10) ∧ Sep p' := by
  intro b s
  induction b, s using skipBlank.induct with
  | case1 b => intro c rest h; rw [skipBlank.eq_def] at h; cases h
  | case2 rest ih =>
    intro c q h
    rw [skipBlank.eq_def] at h
    obtain ⟨p, rfl, hp⟩ := ih h
    exact ⟨13 :: 10 :: p, rfl, [], 13, 10 :: p, rfl, by simp, Or.inl rfl, .ws 10 p (by decide) hp⟩
  | case3 c rest hne ih =>
    intro c' q h
    have h : skipBlank (!(c == 0x0D || c == 0x0A)) rest = c' :: q := by
      rw [skipBlank.eq_def] at h
      split at h
      · cases h
      · rename_i h1 h2; injection h2 with h2 h3; subst h2; subst h3; exact absurd rfl (hne _ rfl)
      · rename_i h1 h2; injection h2 with h2 h3; subst h2; subst h3; exact h
      · rename_i h1 h2; cases h1
    obtain ⟨p, rfl, hp⟩ := ih h
    refine ⟨c :: p, rfl, ?_⟩
    cases hc : (c == 0x0D || c == 0x0A) with
    | true =>
      rw [hc] at hp
      exact ⟨[], c, p, rfl, by simp, by simpa using hc, hp⟩
    | false =>
      rw [hc] at hp
      obtain ⟨body, e, p', rfl, h1, h2, h3⟩ := hp
      have : c ≠ 13 ∧ c ≠ 10 := by simpa using hc
      refine ⟨c :: body, e, p', rfl, ?_, h2, h3⟩
      intro x hx
      rcases List.mem_cons.mp hx with rfl | hx
      · exact this
      · exact h1 x hx
  | case4 c rest hc ih =>
    intro c' q h
    rw [skipBlank.eq_def] at h
    simp only [hc, if_true] at h
    obtain ⟨p, rfl, hp⟩ := ih h
    refine ⟨c :: p, rfl, .ws c p ?_ hp⟩
    revert hc; revert c; apply forall_byte; decide +kernel
  | case5 c rest hc he ih =>
    intro c' q h
    rw [skipBlank.eq_def] at h
    simp only [hc, he, if_true] at h
    obtain ⟨p, rfl, body, e, p', rfl, h1, h2, h3⟩ := ih h
    have : c = 37 := by simpa using he
    subst this
    exact ⟨37 :: (body ++ e :: p'), rfl, .comment body e p' h1 h2 h3⟩
  | case6 c rest hc he =>
    intro c' q h
    rw [skipBlank.eq_def] at h
    simp only [hc, he] at h
    cases h
    exact ⟨[], rfl, .nil⟩

/-- The text of a token that is a name, or a number with its first character. -/
theorem readToken_text {dict : List Bytes} {s : Bytes} {t : Token} {r : Bytes} (h : readToken dict s = .ok (t, r)) :
    (t.type = .eol → ∃ p, Sep p ∧ s = p ++ r) ∧
    (t.type = .name → (∀ c ∈ t.value, 16 ≤ c.toNat) → ∃ p k, Sep p ∧ s = p ++ 47 :: (k ++ r) ∧ NameBody t.value k ∧
      ∀ c ∈ r.head?, isRegular c = false) ∧
    (t.type = .integer ∨ t.type = .real → ∃ p c v q, Sep p ∧ s = p ++ c :: q ∧ t.value = c :: v ∧ isCSpace c = false) := by
  have no : ∀ {ty : TokType} {P Q R : Prop}, ty ≠ .eol → ty ≠ .name → ty ≠ .integer → ty ≠ .real →
      (ty = .eol → P) ∧ (ty = .name → Q) ∧ (ty = .integer ∨ ty = .real → R) :=
    fun h1 h2 h3 h4 => ⟨fun h => absurd h h1, fun h => absurd h h2, fun h => by rcases h with h | h <;> contradiction⟩
  have eol : ∀ {u r' : Bytes} {c : Byte}, skipBlank false s = c :: u → (c :: u = 10 :: r' ∨ c :: u = 13 :: r' ∨ c :: u = 13 :: 10 :: r') →
      ∃ p, Sep p ∧ s = p ++ r' := by
    intro u r' c he hc
    obtain ⟨p, hp, hs⟩ := skipBlank_sep _ _ he
    have hs : Sep p := hs
    rcases hc with hc | hc | hc <;> rw [hc] at hp
    · exact ⟨p ++ [10], sep_append hs (.ws 10 [] (by decide) .nil), by rw [hp]; simp⟩
    · exact ⟨p ++ [13], sep_append hs (.ws 13 [] (by decide) .nil), by rw [hp]; simp⟩
    · exact ⟨p ++ [13, 10], sep_append hs (.ws 13 _ (by decide) (.ws 10 [] (by decide) .nil)), by rw [hp]; simp⟩
  unfold readToken at h
  split at h
  · cases h; exact no (nofun) (nofun) (nofun) (nofun)
  · rename_i rest he
    cases h
    exact ⟨fun _ => eol he (Or.inl rfl), (nofun), (nofun)⟩
  · rename_i rest he
    cases h
    exact ⟨fun _ => eol he (Or.inr (Or.inr rfl)), (nofun), (nofun)⟩
  · rename_i rest _ he
    cases h
    exact ⟨fun _ => eol he (Or.inr (Or.inl rfl)), (nofun), (nofun)⟩
  · cases h; exact no (nofun) (nofun) (nofun) (nofun)
  · cases h
  · cases h; exact no (nofun) (nofun) (nofun) (nofun)
  · cases h; exact no (nofun) (nofun) (nofun) (nofun)
  · rename_i rest _ _ he
    cases hq : readHexString rest <;> rw [hq] at h <;> cases h
    exact no (nofun) (nofun) (nofun) (nofun)
  · cases h; exact no (nofun) (nofun) (nofun) (nofun)
  · cases h; exact no (nofun) (nofun) (nofun) (nofun)
  · rename_i rest he
    cases hq : readName rest with
    | error e => rw [hq] at h; cases h
    | ok v =>
      obtain ⟨n, q⟩ := v
      rw [hq] at h; cases h
      refine ⟨nofun, fun _ hn => ?_, nofun⟩
      obtain ⟨p, hp, hs⟩ := skipBlank_sep _ _ he
      obtain ⟨k, rfl, hk⟩ := readName_inv _ hq hn
      exact ⟨p, k, hs, hp, hk⟩
  · rename_i rest he
    cases hq : readLiteral false 1 rest <;> rw [hq] at h <;> cases h
    exact no (nofun) (nofun) (nofun) (nofun)
  · rename_i ch rest _ _ _ _ _ _ _ _ _ _ _ _ he
    have h' : readUnknown dict ch rest = (t, r) := by injection h
    obtain ⟨p, hp, hs⟩ := skipBlank_sep _ _ he
    unfold readUnknown at h'
    have num : ∀ c : Byte, (isNumeric c || c == 0x2B || c == 0x2D || c == 0x2E) = true → isCSpace c = false := by
      apply forall_byte; decide +kernel
    split at h'
    · rename_i hnum
      simp only at h'
      split at h'
      · cases h'; exact ⟨nofun, nofun, fun _ => ⟨p, ch, _, rest, hs, hp, rfl, num ch hnum⟩⟩
      · split at h'
        · cases h'; exact ⟨nofun, nofun, fun _ => ⟨p, ch, _, rest, hs, hp, rfl, num ch hnum⟩⟩
        · cases h'; exact ⟨nofun, nofun, fun _ => ⟨p, ch, _, rest, hs, hp, rfl, num ch hnum⟩⟩
    · cases h'
      unfold dictFind
      split <;> exact no (by simp) (by simp) (by simp) (by simp)

theorem readTokenSkipN_text {dict : List Bytes} {f : Nat} {s : Bytes} {t : Token} {r : Bytes}
    (h : readTokenSkipN dict f s = .ok (t, r)) :
    (t.type = .name → (∀ c ∈ t.value, 16 ≤ c.toNat) → ∃ p k, Sep p ∧ s = p ++ 47 :: (k ++ r) ∧ NameBody t.value k ∧
      ∀ c ∈ r.head?, isRegular c = false) ∧
    (t.type = .integer ∨ t.type = .real → ∃ p c v q, Sep p ∧ s = p ++ c :: q ∧ t.value = c :: v ∧ isCSpace c = false) := by
  induction f generalizing s with
  | zero => cases h
  | succ f ih =>
    unfold readTokenSkipN at h
    cases hq : readToken dict s with
    | error e => rw [hq] at h; cases h
    | ok p =>
      obtain ⟨t', r'⟩ := p
      rw [hq] at h
      have h' : (if t'.type == .eol then readTokenSkipN dict f r' else pure (t', r')) = Except.ok (t, r) := h
      split at h'
      · rename_i hty
        obtain ⟨p0, hp0, rfl⟩ := (readToken_text hq).1 (by simpa using hty)
        obtain ⟨h1, h2⟩ := ih h'
        constructor
        · intro a b
          obtain ⟨p, k, hp, rfl, hk⟩ := h1 a b
          exact ⟨p0 ++ p, k, sep_append hp0 hp, by simp, hk⟩
        · intro a
          obtain ⟨p, c, v, q, hp, rfl, h3⟩ := h2 a
          exact ⟨p0 ++ p, c, v, q, sep_append hp0 hp, by simp, h3⟩
      · cases h'; exact (readToken_text hq).2

theorem stoll_nonneg {c : Byte} {s : Bytes} {i : Int} (hs : isCSpace c = false) (hc : c ≠ 0x2D) (h : stoll (c :: s) = .ok i) : 0 ≤ i := by
  unfold stoll at h
  cases hq : strtolInt 10 (c :: s) with
  | error e => rw [hq] at h; cases h
  | ok v =>
    rw [hq, ok_bind] at h
    split at h
    · cases h
      unfold strtolInt at hq
      rw [List.dropWhile_cons, hs] at hq
      simp only [Bool.false_eq_true, if_false] at hq
      split at hq
      · rename_i rest he
        injection he with he; exact absurd he hc
      · rename_i rest he
        cases hu : strtolUnsigned 10 rest <;> rw [hu] at hq <;> cases hq
        exact Int.natCast_nonneg _
      · cases hu : strtolUnsigned 10 (c :: s) <;> rw [hu] at hq <;> cases hq
        exact Int.natCast_nonneg _
    · cases h

theorem stoll_no_timeout (s : Bytes) : stoll s ≠ .error .timeout := by
  unfold stoll
  cases hq : strtolInt 10 s with
  | error e =>
    intro h
    have h : e = .timeout := by injection h
    subst h
    unfold strtolInt at hq
    have key : ∀ (g : Nat → Int) t, (strtolUnsigned 10 t).map g ≠ .error .timeout := by
      intro g t ht
      cases hu : strtolUnsigned 10 t with
      | error e => rw [hu] at ht; injection ht with ht; subst ht; exact strtolUnsigned_no_timeout _ _ hu
      | ok v => rw [hu] at ht; cases ht
    split at hq
    · exact key _ _ hq
    · exact key _ _ hq
    · exact key _ _ hq
  | ok v =>
    rw [ok_bind]; split <;> (intro h; cases h)

/-- Numbers at the top are not negative. -/
def NonNeg : Obj → Prop
  | .int i => 0 ≤ i
  | .real m _ => 0 ≤ m
  | _ => True

theorem scanReal_no_timeout (b : Bool) (m : Nat) (p : Option Nat) (s : Bytes) : scanReal b m p s ≠ .error .timeout := by
  induction s generalizing b m p with
  | nil => unfold scanReal; split <;> (intro h; cases h)
  | cons c s ih =>
    unfold scanReal
    split
    · cases p with
      | none => exact ih _ _ _
      | some q => simp only; split <;> (intro h; cases h)
    · exact ih _ _ _

theorem parseReal_no_timeout (s : Bytes) : parseReal s ≠ .error .timeout := by
  have key : ∀ (g : Nat × Nat → Obj) t, (scanReal false 0 none t >>= fun x => pure (g x)) ≠ .error .timeout := by
    intro g t ht
    cases hu : scanReal false 0 none t with
    | error e => rw [hu] at ht; injection ht with ht; subst ht; exact scanReal_no_timeout _ _ _ _ hu
    | ok v => rw [hu] at ht; cases ht
  unfold parseReal
  split
  · exact key _ _
  · exact key _ _
  · exact key _ _

theorem parseReal_nonneg {c : Byte} {s : Bytes} {o : Obj} (hc : c ≠ 0x2D) (h : parseReal (c :: s) = .ok o) : NonNeg o := by
  unfold parseReal at h
  split at h
  · rename_i he; injection he with he; exact absurd he hc
  · rename_i rest he
    cases hu : scanReal false 0 none rest <;> rw [hu] at h <;> cases h
    exact Int.natCast_nonneg _
  · cases hu : scanReal false 0 none (c :: s) <;> rw [hu] at h <;> cases h
    exact Int.natCast_nonneg _

theorem bind_no_timeout {α β : Type} {x : Res α} {f : α → Res β} (hx : x ≠ .error .timeout)
    (hf : ∀ a, x = .ok a → f a ≠ .error .timeout) : (x >>= f) ≠ .error .timeout := by
  cases x with
  | error e => intro h; injection h with h; subst h; exact hx rfl
  | ok a => exact hf a rfl

theorem decodeHexPairs_no_timeout (s : Bytes) : decodeHexPairs s ≠ .error .timeout := by
  induction s using decodeHexPairs.induct with
  | case1 => intro h; cases h
  | case2 x =>
    unfold decodeHexPairs
    exact bind_no_timeout (parseByte_no_timeout _ _) (fun a _ h => by cases h)
  | case3 x y s ih =>
    unfold decodeHexPairs
    exact bind_no_timeout (parseByte_no_timeout _ _)
      (fun a _ => bind_no_timeout ih (fun a _ h => by cases h))

theorem ite_ne {α : Type} {c : Prop} [Decidable c] {a b x : α} (ha : c → a ≠ x) (hb : ¬ c → b ≠ x) :
    (if c then a else b) ≠ x := by
  by_cases h : c
  · rw [if_pos h]; exact ha h
  · rw [if_neg h]; exact hb h

theorem decodeLiteral_no_timeout (k n : Nat) (s : Bytes) (hk : s.length ≤ k) : decodeLiteral n s ≠ .error .timeout := by
  induction k generalizing n s with
  | zero =>
    have : s = [] := by cases s <;> simp_all
    subst this
    unfold decodeLiteral
    split <;> (intro h; cases h)
  | succ k ih =>
    have step : ∀ (m : Nat) (t : Bytes) (g : Bytes → Bytes), t.length ≤ k →
        (decodeLiteral m t >>= fun r => pure (g r)) ≠ .error .timeout :=
      fun m t g ht => bind_no_timeout (ih m t ht) (fun a _ h => by cases h)
    have step2 : ∀ (m : Nat) (t w : Bytes) (g : Byte → Bytes → Bytes), t.length ≤ k →
        (parseByte 8 w >>= fun b => decodeLiteral m t >>= fun r => pure (g b r)) ≠ .error .timeout :=
      fun m t w g ht => bind_no_timeout (parseByte_no_timeout _ _) (fun b _ => step m t (g b) ht)
    cases s with
    | nil => unfold decodeLiteral; split <;> (intro h; cases h)
    | cons c rest =>
      simp only [List.length_cons] at hk
      rw [decodeLiteral.eq_2]
      refine ite_ne (fun _ => ?_) (fun _ => ?_)
      · intro h; cases h
      · extract_lets n'
        refine ite_ne (fun _ => ?_) (fun _ => ?_)
        · split
          · rename_i rest'
            simp only [List.length_cons] at hk
            exact step _ _ (fun r => 0x0D :: 0x0A :: r) (by omega)
          · exact step _ _ (fun r => 0x0D :: r) (by omega)
        · refine ite_ne (fun _ => ?_) (fun _ => ?_)
          · exact step _ _ (fun r => c :: r) (by omega)
          · cases rest with
            | nil => dsimp only; split <;> (intro h; cases h)
            | cons x rest1 =>
              simp only [List.length_cons] at hk
              dsimp only
              refine ite_ne (fun _ => ?_) (fun _ => ?_)
              · exact step _ _ (fun r => 0x0D :: r) (by omega)
              · refine ite_ne (fun _ => ?_) (fun _ => ?_)
                · exact step _ _ (fun r => 0x0C :: r) (by omega)
                · refine ite_ne (fun _ => ?_) (fun _ => ?_)
                  · exact step _ _ (fun r => 0x09 :: r) (by omega)
                  · refine ite_ne (fun _ => ?_) (fun _ => ?_)
                    · exact step _ _ (fun r => 0x0A :: r) (by omega)
                    · refine ite_ne (fun _ => ?_) (fun _ => ?_)
                      · exact step _ _ (fun r => 0x08 :: r) (by omega)
                      · refine ite_ne (fun _ => ?_) (fun _ => ?_)
                        · exact step _ _ (fun r => 0x28 :: r) (by omega)
                        · refine ite_ne (fun _ => ?_) (fun _ => ?_)
                          · exact step _ _ (fun r => 0x29 :: r) (by omega)
                          · refine ite_ne (fun _ => ?_) (fun _ => ?_)
                            · exact step _ _ (fun r => 0x5C :: r) (by omega)
                            · refine ite_ne (fun _ => ?_) (fun _ => ?_)
                              · split
                                · simp only [List.length_cons] at hk
                                  exact ih _ _ (by omega)
                                · exact ih _ _ (by omega)
                              · refine ite_ne (fun _ => ?_) (fun _ => ?_)
                                · exact ih _ _ (by omega)
                                · refine ite_ne (fun _ => ?_) (fun _ => ?_)
                                  · exact ih _ _ (by simp; omega)
                                  · cases rest1 with
                                    | nil => exact step2 _ [] _ (fun b r => b :: r) (by simp)
                                    | cons y rest2 =>
                                      simp only [List.length_cons] at hk
                                      dsimp only
                                      refine ite_ne (fun _ => ?_) (fun _ => ?_)
                                      · cases rest2 with
                                        | nil => exact step2 _ [] _ (fun b r => b :: r) (by simp)
                                        | cons z rest3 =>
                                          simp only [List.length_cons] at hk
                                          dsimp only
                                          refine ite_ne (fun _ => ?_) (fun _ => ?_)
                                          · exact step2 _ _ _ (fun b r => b :: r) (by omega)
                                          · exact step2 _ _ _ (fun b r => b :: r) (by simp; omega)
                                      · exact step2 _ _ _ (fun b r => b :: r) (by simp; omega)

theorem readLine_suffix (s : Bytes) : (readLine s).2 <:+ s ∧ (s ≠ [] → (readLine s).2.length < s.length) := by
  induction s using readLine.induct with
  | case1 => simp [readLine]
  | case2 rest =>
    rw [readLine.eq_def]
    exact ⟨(List.suffix_cons _ _).trans (List.suffix_cons _ _), fun _ => by simp; omega⟩
  | case3 c rest h1 h2 =>
    rw [readLine.eq_def]
    split
    · simp
    · rename_i h; injection h with ha hb; subst ha; subst hb; exact absurd rfl (h1 _ rfl)
    · rename_i h; injection h with ha hb; subst ha; subst hb
      rw [if_pos h2]
      exact ⟨List.suffix_cons _ _, fun _ => by simp⟩
  | case4 c rest h1 h2 ih =>
    rw [readLine.eq_def]
    split
    · simp
    · rename_i h; injection h with ha hb; subst ha; subst hb; exact absurd rfl (h1 _ rfl)
    · rename_i h; injection h with ha hb; subst ha; subst hb
      rw [if_neg h2]
      refine ⟨ih.1.trans (List.suffix_cons _ _), fun _ => ?_⟩
      have := ih.1.length_le
      simp only [List.length_cons]; omega

theorem seek_suffix (e : Env) (p : Int) : e.seek p <:+ e.whole := by
  unfold Env.seek; split
  · exact List.nil_suffix
  · exact List.drop_suffix _ _

theorem pos_length {e : Env} {s : Bytes} (h : s <:+ e.whole) : e.pos s + s.length = e.whole.length := by
  have := h.length_le; unfold Env.pos; omega

theorem seek_length {e : Env} {s : Bytes} (h : s <:+ e.whole) (k : Nat) : (e.seek ((e.pos s : Int) + k)).length ≤ s.length := by
  have := pos_length h
  unfold Env.seek
  rw [if_neg (by omega), List.length_drop]; omega

theorem expectSkip_no_timeout (dict : List Bytes) (ty : TokType) (s : Bytes) : expectSkip dict ty s ≠ .error .timeout :=
  bind_no_timeout (readTokenSkip_no_timeout _ _) (fun a _ => by
    obtain ⟨t, r⟩ := a
    show (if t.type == ty then pure (t, r) else throw Fault.throw : Res (Token × Bytes)) ≠ _
    split <;> (intro h; cases h))

theorem expectSkip_suffix {dict : List Bytes} {ty : TokType} {s r : Bytes} {t : Token} (h : expectSkip dict ty s = .ok (t, r)) :
    r <:+ s := by
  obtain ⟨a, h1, h2⟩ := bind_ok h
  obtain ⟨t', r'⟩ := a
  have h2 : (if t'.type == ty then pure (t', r') else throw Fault.throw : Res (Token × Bytes)) = .ok (t, r) := h2
  split at h2
  · cases h2; exact (readTokenSkip_progress h1).1
  · cases h2

/-- An environment whose text has no negative lengths, and whose references lead to none, in finite time. -/
structure GoodEnv (e : Env) : Prop where
  noNegative : NoNegativeLength e.whole
  nonneg : ∀ n g i, e.resolveInt n g = .ok i → 0 ≤ i
  noTimeout : ∀ n g, e.resolveInt n g ≠ .error .timeout

theorem asInt_no_timeout {e : Env} (he : GoodEnv e) (o : Obj) : asInt e o ≠ .error .timeout := by
  cases o with
  | ref n g => exact he.noTimeout n g
  | _ => intro h; cases h

theorem asInt_nonneg {e : Env} (he : GoodEnv e) {o : Obj} (ho : NonNeg o) {i : Int} (h : asInt e o = .ok i) : 0 ≤ i := by
  cases o with
  | int j => cases h; exact ho
  | real m p =>
    cases h
    exact Int.tdiv_nonneg ho (Int.natCast_nonneg _)
  | ref n g => exact he.nonneg n g i h
  | _ => cases h

theorem streamFallback_no_timeout {e : Env} (he : GoodEnv e) (d : Dict) (off : Nat) (f : Nat) (s : Bytes) (hf : s.length < f) :
    streamFallback e d off f s ≠ .error .timeout := by
  induction f generalizing s with
  | zero => omega
  | succ f ih =>
    rw [streamFallback.eq_def]
    cases s with
    | nil => intro h; cases h
    | cons c s =>
      simp only
      split
      · have := (readLine_suffix (c :: s)).2 (by simp)
        exact ih _ (by omega)
      · refine bind_no_timeout (readTokenSkip_no_timeout _ _) (fun a _ => ?_)
        refine bind_no_timeout ?_ (fun a _ => ?_)
        · unfold endstreamLine
          split
          · exact bind_no_timeout (expectSkip_no_timeout _ _ _) (fun a _ h => by cases h)
          · intro h; cases h
        · refine bind_no_timeout ?_ (fun a _ h => by cases h)
          unfold correctLength
          split
          · intro h; cases h
          · intro h; cases h
          · split
            · refine bind_no_timeout (asInt_no_timeout he _) (fun a _ => ?_)
              split <;> (intro h; cases h)
            · intro h; cases h

theorem streamFallback_suffix {e : Env} (d : Dict) (off : Nat) (f : Nat) (s : Bytes) (hs : s <:+ e.whole) {d' : Dict}
    {r : Bytes} (h : streamFallback e d off f s = .ok (d', r)) : r <:+ e.whole ∧ r.length ≤ s.length := by
  induction f generalizing s with
  | zero => cases h
  | succ f ih =>
    rw [streamFallback.eq_def] at h
    cases s with
    | nil => cases h
    | cons c s =>
      simp only at h
      obtain ⟨hl1, hl2⟩ := readLine_suffix (c :: s)
      have hl2 := hl2 (by simp)
      split at h
      · obtain ⟨h1, h2⟩ := ih _ (hl1.trans hs) h
        exact ⟨h1, by omega⟩
      · obtain ⟨_, -, h⟩ := bind_ok h
        obtain ⟨⟨o, rem⟩, h1, h⟩ := bind_ok h
        obtain ⟨d2, -, h⟩ := bind_ok h
        cases h
        unfold endstreamLine at h1
        simp only at h1
        split at h1
        · obtain ⟨⟨t, r'⟩, h2, h1⟩ := bind_ok h1
          cases h1
          have hsuf := expectSkip_suffix h2
          refine ⟨(hsuf.trans (List.drop_suffix _ _)).trans (seek_suffix _ _), ?_⟩
          have hle := hsuf.length_le
          have hp := pos_length hs
          unfold Env.seek at hle
          split at hle
          · simp at hle; simp [hle]
          · rw [List.length_drop, List.length_drop] at hle; dsimp only; omega
        · cases h1; exact ⟨hl1.trans hs, by dsimp only; omega⟩

theorem readStreamPart_no_timeout {e : Env} (he : GoodEnv e) (d : Dict) (s : Bytes) :
    readStreamPart e d s ≠ .error .timeout := by
  unfold readStreamPart
  refine bind_no_timeout (readTokenSkip_no_timeout _ _) (fun ⟨t, r⟩ _ => ?_)
  refine ite_ne (fun _ => ?_) (fun _ => by intro h; cases h)
  refine bind_no_timeout (readToken_no_timeout _ _) (fun ⟨t2, r2⟩ _ => ?_)
  have fb : (streamFallback e d (e.pos r2) (r2.length + 1) r2 >>= fun x =>
      (pure (PObj.stream x.1 (e.pos r2), x.2) : Res (PObj × Bytes))) ≠ .error .timeout :=
    bind_no_timeout (streamFallback_no_timeout he _ _ _ _ (by omega)) (fun _ _ h => by cases h)
  dsimp only
  refine ite_ne (fun _ => by intro h; cases h) (fun _ => ?_)
  show (match mapFind (b! "Length") d with | none => _ | some lo => _) ≠ _
  cases mapFind (b! "Length") d with
  | none => exact fb
  | some lo =>
    refine ite_ne (fun _ => fb) (fun _ => ?_)
    refine bind_no_timeout (asInt_no_timeout he _) (fun i _ => ?_)
    refine bind_no_timeout (readTokenSkip_no_timeout _ _) (fun ⟨t3, r3⟩ _ => ?_)
    exact ite_ne (fun _ => by intro h; cases h) (fun _ => fb)

/-- The length in a dictionary is not negative. -/
def GoodDict (d : Dict) : Prop := ∀ x ∈ d, x.1 = b! "Length" → NonNeg x.2

/-- The text of a name in front of `r`, of a value that is not a negative number. -/
def GoodP (s r : Bytes) : PObj → Prop
  | .direct (.name n) => (∀ c ∈ n, 16 ≤ c.toNat) → ∃ p k, Sep p ∧ s = p ++ 47 :: (k ++ r) ∧ NameBody n k ∧
      ∀ c ∈ r.head?, isRegular c = false
  | .direct (.int i) => (∀ p q, Sep p → s ≠ p ++ 45 :: q) → 0 ≤ i
  | .direct (.real m _) => (∀ p q, Sep p → s ≠ p ++ 45 :: q) → 0 ≤ m
  | _ => True

theorem goodP_nonneg {s r : Bytes} {o : Obj} (h : GoodP s r (.direct o)) (hs : ∀ p q, Sep p → s ≠ p ++ 45 :: q) : NonNeg o := by
  cases o with
  | int i => exact h hs
  | real m p => exact h hs
  | _ => trivial

theorem mapFind_key {α : Type} {k : Bytes} {v : α} {d : List (Bytes × α)} (h : mapFind k d = some v) : (k, v) ∈ d := by
  induction d with
  | nil => cases h
  | cons a d ih =>
    obtain ⟨k', v'⟩ := a
    unfold mapFind at h
    split at h
    · rename_i hk; cases h; rw [eq_of_beq hk]; simp
    · simp [ih h]

theorem readStreamPart_suffix {e : Env} (he : GoodEnv e) (d : Dict) (s : Bytes) (hs : s <:+ e.whole)
    (hd : GoodDict d) {p : PObj} {r : Bytes} (h : readStreamPart e d s = .ok (p, r)) :
    r <:+ e.whole ∧ r.length ≤ s.length ∧ ∀ q, GoodP q r p := by
  unfold readStreamPart at h
  obtain ⟨⟨t, r1⟩, h1, h⟩ := bind_ok h
  obtain ⟨s1, -, -⟩ := readTokenSkip_progress h1
  dsimp only at h
  split at h
  · obtain ⟨⟨t2, r2⟩, h2, h⟩ := bind_ok h
    have s2 := (readToken_progress' _ _ _ _ h2).1
    dsimp only at h
    have l1 := s1.length_le
    have l2 := s2.length_le
    have fb : ∀ p r, (streamFallback e d (e.pos r2) (r2.length + 1) r2 >>= fun x =>
      (pure (PObj.stream x.1 (e.pos r2), x.2) : Res (PObj × Bytes))) = .ok (p, r) →
        r <:+ e.whole ∧ r.length ≤ s.length ∧ ∀ q, GoodP q r p := by
      intro p r h
      obtain ⟨⟨d', rem⟩, h3, h⟩ := bind_ok h
      cases h
      obtain ⟨h4, h5⟩ := streamFallback_suffix _ _ _ _ (s2.trans (s1.trans hs)) h3
      exact ⟨h4, by dsimp only; omega, fun _ => trivial⟩
    split at h
    · cases h
    · have h : (match mapFind (b! "Length") d with
        | none => (streamFallback e d (e.pos r2) (r2.length + 1) r2 >>= fun x =>
            (pure (PObj.stream x.1 (e.pos r2), x.2) : Res (PObj × Bytes)))
        | some lo => if (match lo with | .int _ => false | _ => !e.initialized) then
              (streamFallback e d (e.pos r2) (r2.length + 1) r2 >>= fun x =>
                (pure (PObj.stream x.1 (e.pos r2), x.2) : Res (PObj × Bytes)))
            else asInt e lo >>= fun len => readTokenSkip parserKeywords (e.seek (e.pos r2 + len)) >>= fun x =>
              if x.1.type == .keyword (b! "endstream") then pure (.stream d (e.pos r2), x.2)
              else (streamFallback e d (e.pos r2) (r2.length + 1) r2 >>= fun x =>
                (pure (PObj.stream x.1 (e.pos r2), x.2) : Res (PObj × Bytes)))) = Except.ok (p, r) := h
      cases hm : mapFind (b! "Length") d with
      | none => rw [hm] at h; exact fb p r h
      | some lo =>
        rw [hm] at h
        dsimp only at h
        generalize (match lo with | .int _ => false | _ => !e.initialized) = bb at h
        cases bb with
        | true => exact fb p r h
        | false =>
          obtain ⟨len, h3, h⟩ := bind_ok h
          obtain ⟨⟨t3, r3⟩, h4, h⟩ := bind_ok h
          dsimp only at h
          split at h
          · cases h
            have hnn := asInt_nonneg he (hd _ (mapFind_key hm) rfl) h3
            obtain ⟨n, rfl⟩ := Int.eq_ofNat_of_zero_le hnn
            have s4 := (readTokenSkip_progress h4).1
            have l4 := s4.length_le
            have l5 := seek_length (s2.trans (s1.trans hs)) n
            refine ⟨s4.trans (seek_suffix _ _), ?_, fun _ => trivial⟩
            have : (e.seek (↑(e.pos r2) + ↑n)).length = (e.seek (↑(e.pos r2) + Int.ofNat n)).length := rfl
            omega
          · exact fb p r h
  · cases h; exact ⟨hs, by omega, fun _ => trivial⟩

theorem readReference_no_timeout (t : Token) (s : Bytes) : readReference t s ≠ .error .timeout := by
  unfold readReference
  refine bind_no_timeout (stoll_no_timeout _) (fun i _ => ?_)
  refine bind_no_timeout (readTokenSkip_no_timeout _ _) (fun ⟨t2, r2⟩ _ => ?_)
  refine ite_ne (fun _ => ?_) (fun _ => by intro h; cases h)
  refine bind_no_timeout (stoll_no_timeout _) (fun g _ => ?_)
  refine bind_no_timeout (readTokenSkip_no_timeout _ _) (fun ⟨t3, r3⟩ _ => ?_)
  refine ite_ne (fun _ => ?_) (fun _ => by intro h; cases h)
  exact ite_ne (fun _ => by intro h; cases h) (fun _ => by intro h; cases h)

theorem readReference_suffix {t : Token} {q s : Bytes} (ht : ∃ p c v q', Sep p ∧ q = p ++ c :: q' ∧ t.value = c :: v ∧ isCSpace c = false)
    {p : PObj} {r : Bytes} (h : readReference t s = .ok (p, r)) : r <:+ s ∧ GoodP q r p := by
  unfold readReference at h
  obtain ⟨i, hi, h⟩ := bind_ok h
  have hi : (∀ p q', Sep p → q ≠ p ++ 45 :: q') → 0 ≤ i := by
    intro hq
    obtain ⟨p, c, v, q', hp, rfl, hv, hc⟩ := ht
    rw [hv] at hi
    exact stoll_nonneg hc (fun h => hq p q' hp (by rw [h])) hi
  obtain ⟨⟨t2, r2⟩, h2, h⟩ := bind_ok h
  have s2 := (readTokenSkip_progress h2).1
  dsimp only at h
  split at h
  · obtain ⟨g, -, h⟩ := bind_ok h
    obtain ⟨⟨t3, r3⟩, h3, h⟩ := bind_ok h
    have s3 := (readTokenSkip_progress h3).1
    dsimp only at h
    split at h
    · split at h
      · cases h; exact ⟨s3.trans s2, trivial⟩
      · cases h
    · cases h; exact ⟨List.suffix_refl _, hi⟩
  · cases h; exact ⟨List.suffix_refl _, hi⟩

theorem mapInsert_nonneg {k : Bytes} {o : Obj} {d : Dict} (hd : GoodDict d) (ho : k = b! "Length" → NonNeg o) :
    GoodDict (mapInsert k o d) := by
  intro x hx
  rcases mapInsert_mem hx with rfl | hx
  · exact ho
  · exact hd x hx

theorem goodP_real {p : Bytes} {c : Byte} {q w r : Bytes} {o : Obj} (hp : Sep p) (h : parseReal (c :: w) = .ok o) :
    GoodP (p ++ c :: q) r (.direct o) := by
  have key : (∀ p' q', Sep p' → p ++ c :: q ≠ p' ++ 45 :: q') → NonNeg o := fun hq =>
    parseReal_nonneg (fun hc => hq p q hp (by rw [hc])) h
  have real : ∃ m n, o = .real m n := by
    unfold parseReal at h
    split at h
    · obtain ⟨x, -, h⟩ := bind_ok h; cases h; exact ⟨_, _, rfl⟩
    · obtain ⟨x, -, h⟩ := bind_ok h; cases h; exact ⟨_, _, rfl⟩
    · obtain ⟨x, -, h⟩ := bind_ok h; cases h; exact ⟨_, _, rfl⟩
  obtain ⟨m, n, rfl⟩ := real
  exact key

/-- Behind the key `/Length` there is no minus sign. -/
theorem length_value {e : Env} (he : GoodEnv e) {s r : Bytes} (hs : s <:+ e.whole) (h : GoodP s r (.direct (.name (b! "Length"))))  :
    ∀ p q, Sep p → r ≠ p ++ 45 :: q := by
  rintro p q hp rfl
  obtain ⟨p0, k, hp0, rfl, hk, hr⟩ := h (by decide)
  have := noNegative_suffix he.noNegative hs p0 k p q (by simp) hk hp
  subst this
  exact absurd (hr 45 (by simp)) (by decide)

/-- The three readers, for one amount of fuel. -/
structure Terminates (e : Env) (f : Nat) : Prop where
  d1 : ∀ s, s <:+ e.whole → 2 * s.length + 1 ≤ f → readDirect e f s ≠ .error .timeout
  d2 : ∀ s p r, s <:+ e.whole → readDirect e f s = .ok (p, r) → r <:+ e.whole ∧ r.length < s.length ∧ GoodP s r p
  a1 : ∀ s acc, s <:+ e.whole → 2 * s.length + 2 ≤ f → readArr e f s acc ≠ .error .timeout
  a2 : ∀ s acc p r, s <:+ e.whole → readArr e f s acc = .ok (p, r) → r <:+ e.whole ∧ r.length < s.length ∧ ∃ l, p = .direct (.arr l)
  m1 : ∀ s acc, s <:+ e.whole → 2 * s.length + 2 ≤ f → readDict e f s acc ≠ .error .timeout
  m2 : ∀ s acc d r, s <:+ e.whole → GoodDict acc → readDict e f s acc = .ok (d, r) →
    r <:+ e.whole ∧ r.length < s.length ∧ GoodDict d

theorem terminates {e : Env} (he : GoodEnv e) (f : Nat) : Terminates e f := by
  induction f with
  | zero =>
    refine ⟨?_, ?_, ?_, ?_, ?_, ?_⟩
    · intro s _ h; omega
    · intro s p r _ h; unfold readDirect at h; cases h
    · intro s acc _ h; omega
    · intro s acc p r _ h; unfold readArr at h; cases h
    · intro s acc _ h; omega
    · intro s acc d r _ _ h; unfold readDict at h; cases h
  | succ f ih =>
    refine ⟨?_, ?_, ?_, ?_, ?_, ?_⟩
    · intro s hs hf
      unfold readDirect
      refine bind_no_timeout (readTokenSkip_no_timeout _ _) (fun ⟨t, r⟩ ht => ?_)
      obtain ⟨hr, -, hlt⟩ := readTokenSkip_progress ht
      dsimp only
      split
      · rename_i hty
        have hlt := hlt (by rw [hty]; simp)
        refine bind_no_timeout (ih.m1 r [] (hr.trans hs) (by omega)) (fun ⟨d, r'⟩ hd => ?_)
        obtain ⟨h1, -, -⟩ := ih.m2 r [] d r' (hr.trans hs) (fun _ h => by cases h) hd
        exact readStreamPart_no_timeout he d r'
      · exact readReference_no_timeout _ _
      · rename_i hty
        have hlt := hlt (by rw [hty]; simp)
        exact ih.a1 r [] (hr.trans hs) (by omega)
      · intro h; cases h
      · exact bind_no_timeout (decodeHexPairs_no_timeout _) (fun _ _ h => by cases h)
      · exact bind_no_timeout (decodeLiteral_no_timeout _ _ _ (Nat.le_refl _)) (fun _ _ h => by cases h)
      · exact bind_no_timeout (parseReal_no_timeout _) (fun _ _ h => by cases h)
      · refine ite_ne (fun _ => by intro h; cases h) (fun _ => ?_)
        refine ite_ne (fun _ => by intro h; cases h) (fun _ => ?_)
        exact ite_ne (fun _ => by intro h; cases h) (fun _ => by intro h; cases h)
      · intro h; cases h
    · intro s p r hs h
      unfold readDirect at h
      obtain ⟨⟨t, r1⟩, ht, h⟩ := bind_ok h
      obtain ⟨hr, -, hlt⟩ := readTokenSkip_progress ht
      have htx := readTokenSkipN_text ht
      dsimp only at h
      split at h
      · rename_i hty
        have hlt := hlt (by rw [hty]; simp)
        obtain ⟨⟨d, r'⟩, hd, h⟩ := bind_ok h
        obtain ⟨h1, h2, h3⟩ := ih.m2 r1 [] d r' (hr.trans hs) (fun _ h => by cases h) hd
        obtain ⟨h4, h5, h6⟩ := readStreamPart_suffix he d r' h1 h3 h
        exact ⟨h4, by omega, h6 s⟩
      · rename_i hty
        have hlt := hlt (by rw [hty]; simp)
        obtain ⟨h1, h2⟩ := readReference_suffix (htx.2 (Or.inl hty)) h
        have := h1.length_le
        exact ⟨h1.trans (hr.trans hs), by omega, h2⟩
      · rename_i hty
        have hlt := hlt (by rw [hty]; simp)
        obtain ⟨h1, h2, l, rfl⟩ := ih.a2 r1 [] p r (hr.trans hs) h
        exact ⟨h1, by omega, trivial⟩
      · rename_i hty
        have hlt := hlt (by rw [hty]; simp)
        cases h; exact ⟨hr.trans hs, hlt, htx.1 hty⟩
      · rename_i hty
        have hlt := hlt (by rw [hty]; simp)
        obtain ⟨v, -, h⟩ := bind_ok h
        cases h; exact ⟨hr.trans hs, hlt, trivial⟩
      · rename_i hty
        have hlt := hlt (by rw [hty]; simp)
        obtain ⟨v, -, h⟩ := bind_ok h
        cases h; exact ⟨hr.trans hs, hlt, trivial⟩
      · rename_i hty
        have hlt := hlt (by rw [hty]; simp)
        obtain ⟨p, c, w, q, hp, heq, hw, hc⟩ := htx.2 (Or.inr hty)
        obtain ⟨v, hv, h⟩ := bind_ok h
        rw [hw] at hv
        cases h
        exact ⟨hr.trans hs, hlt, heq ▸ goodP_real hp hv⟩
      · rename_i w hty
        have hlt := hlt (by rw [hty]; simp)
        split at h
        · cases h; exact ⟨hr.trans hs, hlt, trivial⟩
        · split at h
          · cases h; exact ⟨hr.trans hs, hlt, trivial⟩
          · split at h
            · cases h; exact ⟨hr.trans hs, hlt, trivial⟩
            · cases h
      · cases h
    · intro s acc hs hf
      unfold readArr
      refine bind_no_timeout (readTokenSkip_no_timeout _ _) (fun ⟨t, r⟩ ht => ?_)
      refine ite_ne (fun _ => by intro h; cases h) (fun _ => ?_)
      refine bind_no_timeout (ih.d1 s hs (by omega)) (fun ⟨o, r'⟩ ho => ?_)
      obtain ⟨h1, h2, -⟩ := ih.d2 s o r' hs ho
      cases o with
      | direct o => exact ih.a1 r' _ h1 (by omega)
      | stream d off => intro h; cases h
    · intro s acc p r hs h
      unfold readArr at h
      obtain ⟨⟨t, r1⟩, ht, h⟩ := bind_ok h
      obtain ⟨hr, -, hlt⟩ := readTokenSkip_progress ht
      dsimp only at h
      split at h
      · rename_i hty
        have hty : t.type = .arrayEnd := by simpa using hty
        have hlt := hlt (by rw [hty]; simp)
        cases h; exact ⟨hr.trans hs, hlt, _, rfl⟩
      · obtain ⟨⟨o, r'⟩, ho, h⟩ := bind_ok h
        obtain ⟨h1, h2, -⟩ := ih.d2 s o r' hs ho
        cases o with
        | direct o =>
          obtain ⟨h4, h5, h6⟩ := ih.a2 r' _ p r h1 h
          exact ⟨h4, by omega, h6⟩
        | stream d off => cases h
    · intro s acc hs hf
      unfold readDict
      refine bind_no_timeout (readTokenSkip_no_timeout _ _) (fun ⟨t, r⟩ ht => ?_)
      refine ite_ne (fun _ => by intro h; cases h) (fun _ => ?_)
      refine bind_no_timeout (ih.d1 s hs (by omega)) (fun ⟨k, r1⟩ hk => ?_)
      obtain ⟨h1, h2, -⟩ := ih.d2 s k r1 hs hk
      refine bind_no_timeout (ih.d1 r1 h1 (by omega)) (fun ⟨v, r2⟩ hv => ?_)
      obtain ⟨h3, h4, -⟩ := ih.d2 r1 v r2 h1 hv
      dsimp only
      split
      · exact ih.m1 r2 _ h3 (by omega)
      · split <;> exact ih.m1 r2 _ h3 (by omega)
      · split
        · exact ih.m1 r2 _ h3 (by omega)
        · intro h; cases h
      · exact ih.m1 r2 _ h3 (by omega)
    · intro s acc d r hs hacc h
      unfold readDict at h
      obtain ⟨⟨t, r0⟩, ht, h⟩ := bind_ok h
      obtain ⟨hr, -, hlt⟩ := readTokenSkip_progress ht
      dsimp only at h
      split at h
      · rename_i hty
        have hty : t.type = .dictEnd := by simpa using hty
        have hlt := hlt (by rw [hty]; simp)
        cases h; exact ⟨hr.trans hs, hlt, hacc⟩
      · obtain ⟨⟨k, r1⟩, hk, h⟩ := bind_ok h
        obtain ⟨h1, h2, hgk⟩ := ih.d2 s k r1 hs hk
        obtain ⟨⟨v, r2⟩, hv, h⟩ := bind_ok h
        obtain ⟨h3, h4, hg⟩ := ih.d2 r1 v r2 h1 hv
        have fin : ∀ acc', GoodDict acc' → readDict e f r2 acc' = .ok (d, r) →
            r <:+ e.whole ∧ r.length < s.length ∧ GoodDict d := by
          intro acc' ha h
          obtain ⟨q1, q2, q3⟩ := ih.m2 r2 acc' d r h3 ha h
          exact ⟨q1, by omega, q3⟩
        dsimp only at h
        split at h
        · exact fin _ hacc h
        · split at h
          · exact fin _ hacc h
          · exact fin _ (mapInsert_nonneg hacc (fun hn => goodP_nonneg hg (length_value he hs (hn ▸ hgk)))) h
        · split at h
          · exact fin _ hacc h
          · cases h
        · exact fin _ hacc h

end VPdf
