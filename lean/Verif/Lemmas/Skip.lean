import Verif.Model.Parser
import Verif.Lemmas.Progress
import Verif.Lemmas.NoTimeout
import Verif.Spec.Pdf
/-
  `readTokenSkip`: unfolding, separators.
-/
namespace VPdf

theorem readToken_lt {dict : List Bytes} {s : Bytes} {t : Token} {r : Bytes}
    (h : readToken dict s = .ok (t, r)) (hne : t.type ≠ .endOfInput) : r.length < s.length := by
  rcases (readToken_progress' dict s t r h).2 with ⟨h2, -⟩ | h2
  · exact absurd h2 hne
  · exact h2

theorem readTokenSkipN_enough (dict : List Bytes) (f g : Nat) (s : Bytes) (hf : s.length < f) (hg : s.length < g) :
    readTokenSkipN dict f s = readTokenSkipN dict g s := by
  induction f generalizing s g with
  | zero => omega
  | succ f ih =>
    cases g with
    | zero => omega
    | succ g =>
      unfold readTokenSkipN
      cases ht : readToken dict s with
      | error e => rfl
      | ok p =>
        obtain ⟨t, r⟩ := p
        show (if t.type == .eol then readTokenSkipN dict f r else pure (t, r)) =
          (if t.type == .eol then readTokenSkipN dict g r else pure (t, r))
        split
        · rename_i he
          have he' : t.type = .eol := by simpa using he
          have := readToken_lt ht (by rw [he']; decide)
          exact ih g r (by omega) (by omega)
        · rfl

/-- `ReadTokenSkip` reads a token and starts over behind a line end. -/
theorem readTokenSkip_eq (dict : List Bytes) (s : Bytes) :
    readTokenSkip dict s = (do
      let (t, r) ← readToken dict s
      if t.type == .eol then readTokenSkip dict r else pure (t, r)) := by
  unfold readTokenSkip
  rw [readTokenSkipN]
  cases ht : readToken dict s with
  | error e => rfl
  | ok p =>
    obtain ⟨t, r⟩ := p
    show (if t.type == .eol then readTokenSkipN dict s.length r else pure (t, r)) =
          (if t.type == .eol then readTokenSkipN dict (r.length + 1) r else pure (t, r))
    split
    · rename_i he
      have he' : t.type = .eol := by simpa using he
      have := readToken_lt ht (by rw [he']; decide)
      exact readTokenSkipN_enough dict _ _ r (by omega) (by omega)
    · rfl

theorem readTokenSkip_of_token {dict : List Bytes} {s : Bytes} {t : Token} {r : Bytes}
    (h : readToken dict s = .ok (t, r)) (hne : t.type ≠ .eol) : readTokenSkip dict s = .ok (t, r) := by
  rw [readTokenSkip_eq, h]
  show (if t.type == .eol then _ else _) = _
  rw [if_neg (by simpa using hne)]; rfl

theorem readTokenSkip_of_eol {dict : List Bytes} {s : Bytes} {t : Token} {r : Bytes}
    (h : readToken dict s = .ok (t, r)) (he : t.type = .eol) : readTokenSkip dict s = readTokenSkip dict r := by
  rw [readTokenSkip_eq, h]
  show (if t.type == .eol then _ else _) = _
  rw [if_pos (by simpa using he)]

theorem readToken_congr {dict : List Bytes} {s s' : Bytes} (h : skipBlank false s = skipBlank false s') :
    readToken dict s = readToken dict s' := by
  unfold readToken; rw [h]

theorem readTokenSkip_congr {dict : List Bytes} {s s' : Bytes} (h : skipBlank false s = skipBlank false s') :
    readTokenSkip dict s = readTokenSkip dict s' := by
  rw [readTokenSkip_eq, readTokenSkip_eq dict s', readToken_congr h]

theorem readTokenSkip_lf (dict : List Bytes) (x : Bytes) : readTokenSkip dict (0x0A :: x) = readTokenSkip dict x :=
  readTokenSkip_of_eol (t := ⟨.eol, []⟩) rfl rfl

theorem readTokenSkip_cr (dict : List Bytes) (x : Bytes) : readTokenSkip dict (0x0D :: x) = readTokenSkip dict x := by
  by_cases h : ∃ y, x = 0x0A :: y
  · obtain ⟨y, rfl⟩ := h
    rw [readTokenSkip_lf]
    exact readTokenSkip_of_eol (t := ⟨.eol, []⟩) rfl rfl
  · refine readTokenSkip_of_eol (t := ⟨.eol, []⟩) ?_ rfl
    have : skipBlank false (0x0D :: x) = 0x0D :: x := by rw [skipBlank.eq_def]; simp
    rw [readToken, this]
    split <;> simp_all

theorem readTokenSkip_ws (dict : List Bytes) (c : Byte) (x : Bytes) (hc : c ∈ Spec.whiteSpace) :
    readTokenSkip dict (c :: x) = readTokenSkip dict x := by
  have : c = 0 ∨ c = 9 ∨ c = 10 ∨ c = 12 ∨ c = 13 ∨ c = 32 := by simpa [Spec.whiteSpace] using hc
  rcases this with rfl | rfl | rfl | rfl | rfl | rfl
  · exact readTokenSkip_congr rfl
  · exact readTokenSkip_congr rfl
  · exact readTokenSkip_lf dict x
  · exact readTokenSkip_congr rfl
  · exact readTokenSkip_cr dict x
  · exact readTokenSkip_congr rfl

theorem skipBlank_true_cons (c : Byte) (x : Bytes) (h1 : c ≠ 0x0D) :
    skipBlank true (c :: x) = skipBlank (!(c == 0x0A)) x := by
  rw [skipBlank.eq_3]
  · have h1' : (c == 0x0D) = false := by simpa using h1
    rw [h1']; rfl
  · intro rest h; exact absurd h h1

theorem skipBlank_comment (body x : Bytes) (hb : ∀ c ∈ body, c ≠ 0x0D ∧ c ≠ 0x0A) :
    skipBlank true (body ++ x) = skipBlank true x := by
  induction body with
  | nil => rfl
  | cons c body ih =>
    have hc := hb c (by simp)
    rw [List.cons_append, skipBlank_true_cons _ _ hc.1]
    have : (!(c == 0x0A)) = true := by simp [hc.2]
    rw [this]; exact ih (fun d hd => hb d (by simp [hd]))

theorem readTokenSkip_comment (dict : List Bytes) (body x : Bytes) (c : Byte)
    (hb : ∀ c ∈ body, c ≠ 0x0D ∧ c ≠ 0x0A) (hc : c = 0x0D ∨ c = 0x0A) :
    readTokenSkip dict (0x25 :: (body ++ c :: x)) = readTokenSkip dict x := by
  have e1 : skipBlank false (0x25 :: (body ++ c :: x)) = skipBlank true (c :: x) := by
    rw [← skipBlank_comment body (c :: x) hb]; rfl
  rcases hc with rfl | rfl
  · by_cases h : ∃ y, x = 0x0A :: y
    · obtain ⟨y, rfl⟩ := h
      rw [readTokenSkip_lf]
      exact readTokenSkip_congr (e1.trans rfl)
    · refine readTokenSkip_congr (e1.trans ?_)
      rw [skipBlank.eq_def]
      split <;> simp_all
  · exact readTokenSkip_congr (e1.trans (skipBlank_true_cons _ _ (by decide)))

/-! ### fuel -/

theorem readTokenSkipN_no_timeout (dict : List Bytes) (f : Nat) (s : Bytes) (hf : s.length < f) :
    readTokenSkipN dict f s ≠ .error .timeout := by
  induction f generalizing s with
  | zero => omega
  | succ f ih =>
    unfold readTokenSkipN
    cases ht : readToken dict s with
    | error e => intro h; injection h with h; subst h; exact readToken_no_timeout _ _ ht
    | ok p =>
      obtain ⟨t, r⟩ := p
      show (if t.type == .eol then readTokenSkipN dict f r else pure (t, r)) ≠ _
      split
      · rename_i he
        have he' : t.type = .eol := by simpa using he
        have := readToken_lt ht (by rw [he']; decide)
        exact ih r (by omega)
      · intro h; cases h

theorem readTokenSkip_no_timeout (dict : List Bytes) (s : Bytes) : readTokenSkip dict s ≠ .error .timeout :=
  readTokenSkipN_no_timeout dict _ s (by omega)

theorem readTokenSkipN_progress (dict : List Bytes) (f : Nat) (s : Bytes) (t : Token) (r : Bytes)
    (h : readTokenSkipN dict f s = .ok (t, r)) :
    r <:+ s ∧ t.type ≠ .eol ∧ (t.type ≠ .endOfInput → r.length < s.length) := by
  induction f generalizing s with
  | zero => cases h
  | succ f ih =>
    unfold readTokenSkipN at h
    cases ht : readToken dict s with
    | error e => rw [ht] at h; cases h
    | ok p =>
      obtain ⟨t', r'⟩ := p
      rw [ht] at h
      have h' : (if t'.type == .eol then readTokenSkipN dict f r' else pure (t', r')) = Except.ok (t, r) := h
      obtain ⟨hs, hp⟩ := readToken_progress' dict s t' r' ht
      split at h'
      · rename_i he
        have he' : t'.type = .eol := by simpa using he
        obtain ⟨h1, h2, h3⟩ := ih r' h'
        have := readToken_lt ht (by rw [he']; decide)
        exact ⟨h1.trans hs, h2, fun hn => Nat.lt_trans (h3 hn) this⟩
      · rename_i he
        cases h'
        exact ⟨hs, by simpa using he, fun hn => readToken_lt ht hn⟩

theorem readTokenSkip_progress {dict : List Bytes} {s : Bytes} {t : Token} {r : Bytes}
    (h : readTokenSkip dict s = .ok (t, r)) :
    r <:+ s ∧ t.type ≠ .eol ∧ (t.type ≠ .endOfInput → r.length < s.length) :=
  readTokenSkipN_progress dict _ s t r h

end VPdf
