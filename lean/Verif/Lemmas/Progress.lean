import Verif.Lemmas.Lex
/-
  Every reader returns a suffix of its input.
-/
namespace VPdf

theorem skipBlank_suffix (b : Bool) (s : Bytes) : skipBlank b s <:+ s := by
  induction b, s using skipBlank.induct with
  | case1 => simp [skipBlank]
  | case2 rest ih =>
    rw [skipBlank.eq_def]
    exact ih.trans ((List.suffix_cons _ _).trans (List.suffix_cons _ _))
  | case3 c rest h ih =>
    rw [skipBlank.eq_3]
    · exact ih.trans (List.suffix_cons _ _)
    · exact h
  | case4 c rest h ih =>
    rw [skipBlank.eq_def]; simp only [h, if_true]
    exact ih.trans (List.suffix_cons _ _)
  | case5 c rest h h2 ih =>
    rw [skipBlank.eq_def]; simp only [h, h2, if_true]
    exact ih.trans (List.suffix_cons _ _)
  | case6 c rest h h2 =>
    rw [skipBlank.eq_def]; simp [h, h2]

theorem readName_suffix (s v r : Bytes) (h : readName s = .ok (v, r)) : r <:+ s := by
  induction s using readName.induct generalizing v r with
  | case1 => simp [readName] at h; simp [h]
  | case2 c h1 h2 =>
    rw [readName.eq_def] at h; simp only [h1, h2] at h
    cases hp : parseByte 16 [] <;> rw [hp] at h <;> cases h
    simp
  | case3 c h1 h2 x =>
    rw [readName.eq_def] at h; simp only [h1, h2] at h
    cases hp : parseByte 16 [x] <;> rw [hp] at h <;> cases h
    simp
  | case4 c h1 h2 x y rest ih =>
    rw [readName.eq_def] at h; simp only [h1, h2] at h
    cases hp : parseByte 16 [x, y] <;> rw [hp] at h
    · cases h
    · cases hq : readName rest with
      | error e => rw [hq] at h; cases h
      | ok p => rw [hq] at h; cases h
                exact (ih _ _ hq).trans ((List.suffix_cons _ _).trans ((List.suffix_cons _ _).trans (List.suffix_cons _ _)))
  | case5 c rest h1 h2 ih =>
    rw [readName.eq_def] at h; simp only [h1, h2] at h
    cases hq : readName rest with
    | error e => rw [hq] at h; cases h
    | ok p => rw [hq] at h; cases h
              exact (ih _ _ hq).trans (List.suffix_cons _ _)
  | case6 c rest h1 =>
    rw [readName.eq_def] at h; simp only [h1] at h; cases h; simp

theorem readHexString_suffix (s v r : Bytes) (h : readHexString s = .ok (v, r)) : r <:+ s := by
  induction s generalizing v r with
  | nil => simp [readHexString] at h; simp [h]
  | cons c rest ih =>
    rw [readHexString] at h
    split at h
    · cases h; exact List.suffix_cons _ _
    · split at h
      · exact (ih _ _ h).trans (List.suffix_cons _ _)
      · split at h
        · cases hq : readHexString rest with
          | error e => rw [hq] at h; cases h
          | ok p => rw [hq] at h; cases h
                    exact (ih _ _ hq).trans (List.suffix_cons _ _)
        · cases h

theorem readLiteral_suffix (b : Bool) (n : Nat) (s v r : Bytes) (h : readLiteral b n s = .ok (v, r)) :
    r <:+ s := by
  induction s generalizing b n v r with
  | nil => rw [readLiteral.eq_def] at h; cases h
  | cons c rest ih =>
    cases b with
    | true =>
      rw [readLiteral.eq_def] at h; simp only at h
      cases hq : readLiteral false n rest with
      | error e => rw [hq] at h; cases h
      | ok p => rw [hq] at h; cases h
                exact (ih _ _ _ _ hq).trans (List.suffix_cons _ _)
    | false =>
      rw [readLiteral.eq_def] at h; simp only at h
      split at h
      · cases h; exact List.suffix_cons _ _
      · generalize hn : (if c == 0x28 then n + 1 else if c == 0x29 then n - 1 else n) = n' at h
        cases hq : readLiteral (c == 0x5C) n' rest with
        | error e => rw [hq] at h; cases h
        | ok p => rw [hq] at h; cases h
                  exact (ih _ _ _ _ hq).trans (List.suffix_cons _ _)

theorem readUnknown_suffix (dict : List Bytes) (c : Byte) (s : Bytes) : (readUnknown dict c s).2 <:+ s := by
  unfold readUnknown
  split
  · simp only
    split
    · exact List.dropWhile_suffix _
    · split
      · rename_i rest2 heq
        have h1 : (0x2E :: rest2) <:+ s := heq ▸ List.dropWhile_suffix _
        exact (List.dropWhile_suffix _).trans ((List.suffix_cons _ _).trans h1)
      · exact List.dropWhile_suffix _
  · exact List.dropWhile_suffix _

theorem suffix_lt {c : Byte} {r t : Bytes} (h : r <:+ t) : r.length < (c :: t).length := by
  have := h.length_le; simp; omega

/-- A token either is the end of input, or its reading consumes at least one byte. -/
theorem readToken_progress' (dict : List Bytes) (s : Bytes) (t : Token) (r : Bytes)
    (h : readToken dict s = .ok (t, r)) :
    r <:+ s ∧ ((t.type = .endOfInput ∧ r = []) ∨ (r.length < s.length)) := by
  have hs := skipBlank_suffix false s
  have key : ∀ u, skipBlank false s = u → (r <:+ u ∧ ((t.type = .endOfInput ∧ r = []) ∨ (r.length < u.length))) →
      r <:+ s ∧ ((t.type = .endOfInput ∧ r = []) ∨ (r.length < s.length)) := by
    intro u hu hh
    rw [hu] at hs
    refine ⟨hh.1.trans hs, ?_⟩
    rcases hh.2 with h | h
    · exact Or.inl h
    · right; have := hs.length_le; omega
  unfold readToken at h
  split at h
  · rename_i he; cases h; exact key _ he (by simp)
  · rename_i he; cases h; exact key _ he ⟨List.suffix_cons _ _, Or.inr (suffix_lt (List.suffix_refl _))⟩
  · rename_i he; cases h; exact key _ he ⟨(List.suffix_cons _ _).trans (List.suffix_cons _ _), Or.inr (suffix_lt (List.suffix_cons _ _))⟩
  · rename_i he; cases h; exact key _ he ⟨List.suffix_cons _ _, Or.inr (suffix_lt (List.suffix_refl _))⟩
  · rename_i he; cases h; exact key _ he ⟨(List.suffix_cons _ _).trans (List.suffix_cons _ _), Or.inr (suffix_lt (List.suffix_cons _ _))⟩
  · cases h
  · rename_i he; cases h; exact key _ he ⟨(List.suffix_cons _ _).trans (List.suffix_cons _ _), Or.inr (suffix_lt (List.suffix_cons _ _))⟩
  · rename_i he; cases h; exact key _ he ⟨(List.suffix_cons _ _).trans (List.suffix_cons _ _), Or.inr (suffix_lt (List.suffix_cons _ _))⟩
  · rename_i rest _ _ he
    cases hq : readHexString rest with
    | error e => rw [hq] at h; cases h
    | ok p =>
      rw [hq] at h; cases h
      have := readHexString_suffix _ _ _ hq
      exact key _ he ⟨this.trans (List.suffix_cons _ _), Or.inr (suffix_lt this)⟩
  · rename_i he; cases h; exact key _ he ⟨List.suffix_cons _ _, Or.inr (suffix_lt (List.suffix_refl _))⟩
  · rename_i he; cases h; exact key _ he ⟨List.suffix_cons _ _, Or.inr (suffix_lt (List.suffix_refl _))⟩
  · rename_i rest he
    cases hq : readName rest with
    | error e => rw [hq] at h; cases h
    | ok p =>
      rw [hq] at h; cases h
      have := readName_suffix _ _ _ hq
      exact key _ he ⟨this.trans (List.suffix_cons _ _), Or.inr (suffix_lt this)⟩
  · rename_i rest he
    cases hq : readLiteral false 1 rest with
    | error e => rw [hq] at h; cases h
    | ok p =>
      rw [hq] at h; cases h
      have := readLiteral_suffix _ _ _ _ _ hq
      exact key _ he ⟨this.trans (List.suffix_cons _ _), Or.inr (suffix_lt this)⟩
  · rename_i ch rest _ _ _ _ _ _ _ _ _ _ _ _ he
    have h' : readUnknown dict ch rest = (t, r) := by injection h
    have := readUnknown_suffix dict ch rest
    rw [h'] at this
    exact key _ he ⟨this.trans (List.suffix_cons _ _), Or.inr (suffix_lt this)⟩

end VPdf
