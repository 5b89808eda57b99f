import Verif.Lemmas.XrefTable
import Verif.Lemmas.ParseTerm
import Verif.Spec.Opening
/-
  Lemmas for opening files.
-/
namespace VPdf
open Spec

theorem white_mem : ∀ c : UInt8, c ∈ whiteSpace ↔ isWhiteSpace c = true := by
  apply forall_byte; decide +kernel

theorem readLine_first (s : Bytes) : FirstLine s (readLine s).1 (readLine s).2 := by
  induction s using readLine.induct with
  | case1 => simp [readLine, FirstLine]
  | case2 rest => simp [readLine, FirstLine]
  | case3 c rest h1 h2 =>
    rw [readLine.eq_def]
    simp only [h2, if_true]
    have : c = 13 ∨ c = 10 := by simpa using h2
    refine ⟨by simp, ?_⟩
    rcases this with rfl | rfl
    · refine Or.inr (Or.inr (Or.inl ⟨rfl, ?_⟩))
      intro hr
      cases rest with
      | nil => simp at hr
      | cons x xs => simp at hr; subst hr; exact h1 xs rfl rfl
    · exact Or.inr (Or.inl rfl)
  | case4 c rest h1 h2 ih =>
    obtain ⟨i1, i2⟩ := ih
    have hc : c ≠ 13 ∧ c ≠ 10 := by simpa using h2
    have e : readLine (c :: rest) = (c :: (readLine rest).1, (readLine rest).2) := by
      rw [readLine.eq_def]; simp only [h2]; rfl
    rw [e]
    refine ⟨?_, ?_⟩
    · intro x hx
      rcases List.mem_cons.mp hx with rfl | hx
      · exact hc
      · exact i1 x hx
    · simp only [List.cons_append, List.cons.injEq, true_and]
      exact i2

theorem readLine_of_first {s l r : Bytes} (h : FirstLine s l r) : readLine s = (l, r) := by
  induction l generalizing s with
  | nil =>
    obtain ⟨_, rfl | rfl | ⟨rfl, hr⟩ | ⟨rfl, rfl⟩⟩ := h
    · rfl
    · rfl
    · cases r with
      | nil => rfl
      | cons x xs =>
        show readLine (13 :: x :: xs) = _
        rw [readLine.eq_def]
        split
        · rename_i h; cases h
        · rename_i h; injection h with _ h; injection h with h _; subst h; simp at hr
        · rename_i c rest _ h; injection h with h1 h2; subst h1; subst h2; rfl
    · rfl
  | cons c l ih =>
    obtain ⟨n, h⟩ := h
    have hc := n c (by simp)
    obtain ⟨s', rfl⟩ : ∃ s', s = c :: s' := by
      rcases h with rfl | rfl | ⟨rfl, hr⟩ | ⟨rfl, rfl⟩ <;> simp
    have f1 : FirstLine s' l r := ⟨fun y hy => n y (by simp [hy]), by simpa using h⟩
    have := ih f1
    rw [readLine.eq_def]
    split
    · rename_i h; cases h
    · rename_i h; injection h with h _; exact absurd h hc.1
    · rename_i c' rest _ h; injection h with h1 h2; subst h1; subst h2
      rw [if_neg (by simpa using hc), this]

/-! ### The reverse tokenizer -/

theorem revToken_word (c : Byte) (w x : Bytes) (hc : isWhiteSpace c = false) (hn : isNumeric c = false)
    (hw : ∀ b ∈ w, isWhiteSpace b = false) (hx : ∀ b ∈ x.head?, isWhiteSpace b = true) :
    revToken (c :: (w ++ x)) = (revFind (c :: w), c :: w, x) := by
  have h1 : (w ++ x).takeWhile (fun b => !isWhiteSpace b) = w := by
    rw [List.takeWhile_append_of_pos (by simpa using hw)]
    cases x with
    | nil => simp
    | cons y ys => have := hx y (by simp); simp [List.takeWhile, this]
  have h2 : (w ++ x).dropWhile (fun b => !isWhiteSpace b) = x := by
    rw [List.dropWhile_append_of_pos (by simpa using hw)]
    cases x with
    | nil => simp
    | cons y ys => have := hx y (by simp); simp [List.dropWhile, this]
  have hw' : ¬ (c = 0x20 ∨ c = 0x0C ∨ c = 0x09 ∨ c = 0x00) ∧ c ≠ 0x0A ∧ c ≠ 0x0D := by
    simp [isWhiteSpace] at hc; simp; tauto
  rw [revToken.eq_def]; dsimp only
  rw [if_neg hw'.2.1, if_neg hw'.1, if_neg hw'.2.2, revUnknown, hn]
  simp only [h1, h2]; rfl

theorem revDigit_facts : ∀ c : UInt8, IsDigit c → isNumeric c = true ∧ isWhiteSpace c = false ∧ (c == 0x2B || c == 0x2D) = false := by
  apply forall_byte; unfold IsDigit; decide +kernel

/-- An integer read backwards. -/
theorem revToken_int {i : Int} {t : Bytes} (h : IntText i t) (x : Bytes)
    (hx : ∀ b ∈ x.head?, isNumeric b = false ∧ (b == 0x2B || b == 0x2D) = false) :
    revToken (t.reverse ++ x) = (.integer, t.reverse, x) := by
  -- digits ++ optional sign, reversed
  have key : ∀ (c : Byte) (ds sg : Bytes), (∀ b ∈ c :: ds, IsDigit b) → (sg = [] ∨ sg = [0x2B] ∨ sg = [0x2D]) →
      revToken (c :: (ds ++ (sg ++ x))) = (.integer, c :: ds ++ sg, x) := by
    intro c ds sg hd hs
    obtain ⟨c1, c2, _⟩ := revDigit_facts c (hd c (by simp))
    have hsx : ∀ b ∈ (sg ++ x).head?, isNumeric b = false := by
      rcases hs with rfl | rfl | rfl
      · intro b hb; exact (hx b (by simpa using hb)).1
      · simp; decide
      · simp; decide
    have hall : ∀ b ∈ ds, isNumeric b = true := fun b hb => (revDigit_facts b (hd b (by simp [hb]))).1
    have h1 : (ds ++ (sg ++ x)).takeWhile isNumeric = ds := by
      rw [List.takeWhile_append_of_pos hall]
      cases hsg : sg ++ x with
      | nil => simp
      | cons y ys => have := hsx y (by simp [hsg]); simp [List.takeWhile, this]
    have h2 : (ds ++ (sg ++ x)).dropWhile isNumeric = sg ++ x := by
      rw [List.dropWhile_append_of_pos hall]
      cases hsg : sg ++ x with
      | nil => simp
      | cons y ys => have := hsx y (by simp [hsg]); simp [List.dropWhile, this]
    have hsa : ∀ b ∈ sg, (b == 0x2B || b == 0x2D) = true := by rcases hs with rfl | rfl | rfl <;> simp
    have h3 : (sg ++ x).takeWhile (fun b => b == 0x2B || b == 0x2D) = sg := by
      rw [List.takeWhile_append_of_pos hsa]
      cases x with
      | nil => simp
      | cons y ys => have := (hx y (by simp)).2; simp only [List.takeWhile, this]; simp
    have h4 : (sg ++ x).dropWhile (fun b => b == 0x2B || b == 0x2D) = x := by
      rw [List.dropWhile_append_of_pos hsa]
      cases x with
      | nil => simp
      | cons y ys => have := (hx y (by simp)).2; simp only [List.dropWhile, this]
    have hw' : ¬ (c = 0x20 ∨ c = 0x0C ∨ c = 0x09 ∨ c = 0x00) ∧ c ≠ 0x0A ∧ c ≠ 0x0D := by
      simp [isWhiteSpace] at c2; simp; tauto
    rw [revToken.eq_def]; dsimp only
    rw [if_neg hw'.2.1, if_neg hw'.1, if_neg hw'.2.2, revUnknown, c1]
    simp only [h1, h2, h3, h4, if_true]
  obtain ⟨ds, hne, hd, h⟩ := h
  obtain ⟨c, cs, hcs⟩ : ∃ c cs, ds.reverse = c :: cs := by
    cases hr : ds.reverse with
    | nil => exact absurd (by simpa using hr) hne
    | cons c cs => exact ⟨c, cs, rfl⟩
  have hd' : ∀ b ∈ c :: cs, IsDigit b := fun b hb => hd b (by rw [← List.mem_reverse, hcs]; exact hb)
  rcases h with ⟨rfl, _⟩ | ⟨rfl, _⟩ | ⟨rfl, _⟩
  · have := key c cs [] hd' (Or.inl rfl)
    rw [hcs]; simpa using this
  · have := key c cs [0x2B] hd' (Or.inr (Or.inl rfl))
    rw [List.reverse_cons, hcs]; simpa using this
  · have := key c cs [0x2D] hd' (Or.inr (Or.inr rfl))
    rw [List.reverse_cons, hcs]; simpa using this

theorem revToken_nonwhite (x : Bytes) (hx : ∀ b ∈ x.head?, isWhiteSpace b = false) : (revToken x).1 ≠ .eol := by
  cases x with
  | nil => simp [revToken]
  | cons c s =>
    have hc := hx c (by simp)
    have hw' : ¬ (c = 0x20 ∨ c = 0x0C ∨ c = 0x09 ∨ c = 0x00) ∧ c ≠ 0x0A ∧ c ≠ 0x0D := by
      simp [isWhiteSpace] at hc; simp; tauto
    rw [revToken.eq_def]; dsimp only
    rw [if_neg hw'.2.1, if_neg hw'.1, if_neg hw'.2.2, revUnknown]
    split
    · simp
    · simp only [revFind]; split <;> (try split) <;> simp

/-- White-space in front of a token is skipped. -/
theorem revExpect_skip (ty : RevType) (x : Bytes) (hx : ∀ b ∈ x.head?, isWhiteSpace b = false) (hty : ty ≠ .eol)
    (n : Nat) : ∀ (w : Bytes), w.length ≤ n → (∀ b ∈ w, isWhiteSpace b = true) → ∀ f, w.length < f →
    revExpect f ty (w ++ x) = if (revToken x).1 = ty then .ok ((revToken x).2.1, (revToken x).2.2) else .error .throw := by
  have hne := revToken_nonwhite x hx
  induction n with
  | zero =>
    intro w hw _ f hf
    obtain rfl := List.length_eq_zero_iff.mp (Nat.le_zero.mp hw)
    obtain ⟨f, rfl⟩ : ∃ k, f = k + 1 := ⟨f - 1, by simp at hf; omega⟩
    rw [revExpect, List.nil_append]
    generalize revToken x = t at *
    obtain ⟨t, v, r⟩ := t
    dsimp only at hne ⊢
    rw [if_neg hne]
  | succ n ih =>
    intro w hw hall f hf
    cases w with
    | nil => exact ih [] (by simp) (by simp) f hf
    | cons c w =>
      obtain ⟨f, rfl⟩ : ∃ k, f = k + 1 := ⟨f - 1, by omega⟩
      simp only [List.length_cons] at hw hf
      have hw2 : ∀ b ∈ w, isWhiteSpace b = true := fun b hb => hall b (by simp [hb])
      have hc := hall c (by simp)
      by_cases h1 : c = 0x0A
      · subst h1
        by_cases h2 : ∃ w', w = 0x0D :: w'
        · obtain ⟨w', rfl⟩ := h2
          simp only [List.length_cons] at hw hf
          have ht : revToken (0x0A :: (0x0D :: w') ++ x) = (.eol, [], w' ++ x) := by
            rw [revToken.eq_def]; rfl
          rw [revExpect, ht]; dsimp only
          rw [if_neg (Ne.symm hty), if_pos rfl]
          exact ih w' (by omega) (fun b hb => hw2 b (by simp [hb])) f (by omega)
        · have ht : revToken (0x0A :: w ++ x) = (.eol, [], w ++ x) := by
            rw [revToken.eq_def]; dsimp only [List.cons_append]
            rw [if_pos rfl]
            split
            · rename_i s hs
              exfalso
              cases w with
              | nil =>
                simp at hs
                have := hx 0x0D (by rw [hs]; rfl)
                exact absurd this (by decide)
              | cons y ys =>
                injection hs with h _; exact h2 ⟨ys, by rw [h]⟩
            · rfl
          rw [revExpect, ht]; dsimp only
          rw [if_neg (Ne.symm hty), if_pos rfl]
          exact ih w (by omega) hw2 f (by omega)
      · by_cases h2 : c = 0x20 ∨ c = 0x0C ∨ c = 0x09 ∨ c = 0x00
        · have ht : revToken (c :: w ++ x) = revToken (w ++ x) := by
            conv => lhs; rw [revToken.eq_def]
            dsimp only [List.cons_append]
            rw [if_neg h1, if_pos h2]
          have := ih w (by omega) hw2 (f + 1) (by omega)
          rw [revExpect] at this ⊢
          rw [ht]; exact this
        · have h3 : c = 0x0D := by
            simp [isWhiteSpace] at hc
            simp at h2
            tauto
          subst h3
          have ht : revToken (0x0D :: w ++ x) = (.eol, [], w ++ x) := by
            rw [revToken.eq_def]; rfl
          rw [revExpect, ht]; dsimp only
          rw [if_neg (Ne.symm hty), if_pos rfl]
          exact ih w (by omega) hw2 f (by omega)

end VPdf
