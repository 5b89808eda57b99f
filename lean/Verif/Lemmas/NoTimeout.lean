import Verif.Model.Tokenizer
/-
  The readers of the tokenizer are structurally recursive: none reports exhaustion of fuel.
-/
namespace VPdf

/-- No reader of the tokenizer reports exhaustion of fuel. -/
theorem strtolUnsigned_no_timeout (b : Nat) (s : Bytes) : strtolUnsigned b s ≠ .error .timeout := by
  unfold strtolUnsigned; simp only; split
  · exact fun h => nomatch h
  · split <;> exact fun h => nomatch h

theorem parseByte_no_timeout (b : Nat) (s : Bytes) : parseByte b s ≠ .error .timeout := by
  have hm : ∀ (f : Nat → Int) (t : Bytes), (strtolUnsigned b t).map f ≠ .error .timeout := by
    intro f t h
    cases hq : strtolUnsigned b t with
    | ok v => rw [hq] at h; cases h
    | error e => rw [hq] at h; injection h with h; subst h; exact strtolUnsigned_no_timeout b t hq
  have hi : strtolInt b s ≠ .error .timeout := by
    unfold strtolInt; split <;> apply hm
  unfold parseByte stoi
  cases hq : strtolInt b s with
  | error e => intro h; injection h with h; subst h; exact hi hq
  | ok v =>
    show (if _ then _ else _ : Res Int).bind toUChar ≠ _
    split
    · show toUChar v ≠ _
      unfold toUChar; split <;> exact fun h => nomatch h
    · exact fun h => nomatch h

theorem readName_no_timeout (s : Bytes) : readName s ≠ .error .timeout := by
  induction s using readName.induct with
  | case1 => exact fun h => nomatch h
  | case2 c h1 h2 =>
    rw [readName.eq_def]; simp only [h1, h2]
    cases hp : parseByte 16 [] with
    | ok v => exact fun h => nomatch h
    | error e => intro h; injection h with h; subst h; exact parseByte_no_timeout _ _ hp
  | case3 c h1 h2 x =>
    rw [readName.eq_def]; simp only [h1, h2]
    cases hp : parseByte 16 [x] with
    | ok v => exact fun h => nomatch h
    | error e => intro h; injection h with h; subst h; exact parseByte_no_timeout _ _ hp
  | case4 c h1 h2 x y rest ih =>
    rw [readName.eq_def]; simp only [h1, h2]
    cases hp : parseByte 16 [x, y] with
    | ok v =>
      cases hq : readName rest with
      | ok p => exact fun h => nomatch h
      | error e => intro h; injection h with h; subst h; exact ih hq
    | error e => intro h; injection h with h; subst h; exact parseByte_no_timeout _ _ hp
  | case5 c rest h1 h2 ih =>
    rw [readName.eq_def]; simp only [h1, h2]
    cases hq : readName rest with
    | ok p => exact fun h => nomatch h
    | error e => intro h; injection h with h; subst h; exact ih hq
  | case6 c rest h1 =>
    rw [readName.eq_def]; simp only [h1]; exact fun h => nomatch h

theorem readHexString_no_timeout (s : Bytes) : readHexString s ≠ .error .timeout := by
  induction s with
  | nil => exact fun h => nomatch h
  | cons c rest ih =>
    rw [readHexString]
    split
    · exact fun h => nomatch h
    · split
      · exact ih
      · split
        · cases hq : readHexString rest with
          | ok p => exact fun h => nomatch h
          | error e => intro h; injection h with h; subst h; exact ih hq
        · exact fun h => nomatch h

theorem readLiteral_no_timeout (b : Bool) (n : Nat) (s : Bytes) : readLiteral b n s ≠ .error .timeout := by
  induction s generalizing b n with
  | nil => rw [readLiteral.eq_def]; exact fun h => nomatch h
  | cons c rest ih =>
    cases b with
    | true =>
      rw [readLiteral.eq_def]; simp only
      cases hq : readLiteral false n rest with
      | ok p => exact fun h => nomatch h
      | error e => intro h; injection h with h; subst h; exact ih _ _ hq
    | false =>
      rw [readLiteral.eq_def]; simp only
      split
      · exact fun h => nomatch h
      · generalize (if c == 0x28 then n + 1 else if c == 0x29 then n - 1 else n) = n'
        cases hq : readLiteral (c == 0x5C) n' rest with
        | ok p => exact fun h => nomatch h
        | error e => intro h; injection h with h; subst h; exact ih _ _ hq

theorem readToken_no_timeout (dict : List Bytes) (s : Bytes) : readToken dict s ≠ .error .timeout := by
  unfold readToken
  split
  any_goals (intro h; cases h; done)
  · rename_i rest _ _ _
    cases hq : readHexString rest with
    | ok p => exact fun h => nomatch h
    | error e => intro h; injection h with h; subst h; exact readHexString_no_timeout _ hq
  · rename_i rest _
    cases hq : readName rest with
    | ok p => exact fun h => nomatch h
    | error e => intro h; injection h with h; subst h; exact readName_no_timeout _ hq
  · rename_i rest _
    cases hq : readLiteral false 1 rest with
    | ok p => exact fun h => nomatch h
    | error e => intro h; injection h with h; subst h; exact readLiteral_no_timeout _ _ _ hq

end VPdf
