import Verif.Spec.Recovery
import Verif.Model.Recovery
import Verif.Lemmas.WriteObject
import Verif.Lemmas.Opening
import Verif.Lemmas.CharMapParser
import Verif.Lemmas.ContentTerm
/-
  The search for objects of a file.
-/
namespace VPdf
open Spec

/-! ### separators in front of a token -/

theorem readToken_blank (dict : List Bytes) (c : Byte) (x : Bytes) (hc : c ∈ ([0, 9, 12, 32] : List UInt8)) :
    readToken dict (c :: x) = readToken dict x := by
  simp only [List.mem_cons, List.not_mem_nil, or_false] at hc
  rcases hc with rfl | rfl | rfl | rfl <;> exact readToken_congr rfl

theorem readToken_blanks (dict : List Bytes) (b x : Bytes) (hb : Blanks b) : readToken dict (b ++ x) = readToken dict x := by
  induction b with
  | nil => rfl
  | cons c b ih =>
    rw [List.cons_append, readToken_blank dict c _ (hb c (by simp)), ih (fun d hd => hb d (by simp [hd]))]

theorem readToken_lf (dict : List Bytes) (x : Bytes) : readToken dict (10 :: x) = .ok (⟨.eol, []⟩, x) := rfl

theorem readToken_crlf (dict : List Bytes) (x : Bytes) : readToken dict (13 :: 10 :: x) = .ok (⟨.eol, []⟩, x) := rfl

theorem readToken_cr (dict : List Bytes) (x : Bytes) (h : x.head? ≠ some 10) : readToken dict (13 :: x) = .ok (⟨.eol, []⟩, x) := by
  cases x with
  | nil => rfl
  | cons c x =>
    have hc : c ≠ 10 := by simpa using h
    unfold readToken
    have : skipBlank false (13 :: c :: x) = 13 :: c :: x := by
      rw [skipBlank.eq_def]; simp
    rw [this]
    split <;> simp_all

theorem sep_step (dict : List Bytes) (x : Bytes) (hx : x.head? ≠ some 10) : ∀ (n : Nat) (sep : Bytes), sep.length ≤ n → Sep sep →
    readToken dict (sep ++ x) = readToken dict x ∨
    ∃ q s', Sep s' ∧ q ≠ [] ∧ sep = q ++ s' ∧ readToken dict (sep ++ x) = .ok (⟨.eol, []⟩, s' ++ x) := by
  intro n
  induction n with
  | zero =>
    intro sep hn _
    have : sep = [] := List.length_eq_zero_iff.mp (by omega)
    subst this; exact Or.inl rfl
  | succ n ih =>
    intro sep hn hs
    cases hs with
    | nil => exact Or.inl rfl
    | ws c s hc hs =>
      have hcs : c = 0 ∨ c = 9 ∨ c = 10 ∨ c = 12 ∨ c = 13 ∨ c = 32 := by simpa [Spec.whiteSpace] using hc
      by_cases hb : c ∈ ([0, 9, 12, 32] : List UInt8)
      · have e1 := readToken_blank dict c (s ++ x) hb
        rcases ih s (by simp at hn; omega) hs with h | ⟨q, s', h1, h2, h3, h4⟩
        · exact Or.inl (by rw [List.cons_append, e1, h])
        · exact Or.inr ⟨c :: q, s', h1, by simp, by rw [h3]; rfl, by rw [List.cons_append, e1, h4]⟩
      · by_cases h10 : c = 10
        · subst h10
          exact Or.inr ⟨[10], s, hs, by simp, rfl, rfl⟩
        · have h13 : c = 13 := by simp at hb; tauto
          subst h13
          by_cases hh : ∃ s', s = 10 :: s'
          · obtain ⟨s', rfl⟩ := hh
            refine Or.inr ⟨[13, 10], s', ?_, by simp, rfl, rfl⟩
            cases hs with
            | ws _ _ _ h => exact h
          · refine Or.inr ⟨[13], s, hs, by simp, rfl, readToken_cr dict (s ++ x) ?_⟩
            cases s with
            | nil => exact hx
            | cons d s =>
              intro hd
              simp at hd
              exact hh ⟨s, by rw [hd]⟩
    | comment body c s hb hc hs =>
      have e1 : skipBlank false (37 :: (body ++ c :: s) ++ x) = skipBlank true (c :: (s ++ x)) := by
        have := skipBlank_comment body (c :: (s ++ x)) hb
        rw [← this]; simp; rfl
      have lift : ∀ (y : Bytes) (p : Bytes), Sep y → y.length ≤ n → skipBlank true (c :: (s ++ x)) = skipBlank false (y ++ x) →
          37 :: (body ++ c :: s) = p ++ y → p ≠ [] →
          readToken dict (37 :: (body ++ c :: s) ++ x) = readToken dict x ∨
          ∃ q s', Sep s' ∧ q ≠ [] ∧ 37 :: (body ++ c :: s) = q ++ s' ∧
            readToken dict (37 :: (body ++ c :: s) ++ x) = .ok (⟨.eol, []⟩, s' ++ x) := by
        intro y p hy hl he hp hpn
        have e2 := readToken_congr (dict := dict) (e1.trans he)
        rcases ih y hl hy with h | ⟨q, s', h1, h2, h3, h4⟩
        · exact Or.inl (e2.trans h)
        · exact Or.inr ⟨p ++ q, s', h1, by simp [hpn], by rw [hp, h3]; simp, e2.trans h4⟩
      have hlen : s.length ≤ n := by simp at hn; omega
      rcases hc with rfl | rfl
      · by_cases hh : ∃ s', s = 10 :: s'
        · obtain ⟨s', rfl⟩ := hh
          refine lift s' (37 :: (body ++ [13, 10])) ?_ (by simp at hlen; omega) rfl (by simp) (by simp)
          cases hs with
          | ws _ _ _ h => exact h
        · refine lift s (37 :: (body ++ [13])) hs hlen ?_ (by simp) (by simp)
          have hd : (s ++ x).head? ≠ some 10 := by
            cases s with
            | nil => exact hx
            | cons d s => intro hd; simp at hd; exact hh ⟨s, by rw [hd]⟩
          generalize s ++ x = y at hd
          rw [skipBlank.eq_def]
          split <;> simp_all
      · exact lift s (37 :: (body ++ [10])) hs hlen (skipBlank_true_cons _ _ (by decide)) (by simp) (by simp)

/-- Separators in front of a text are passed over, up to some that are left in front of its first token. -/
theorem findLoop_sep (c : Codec) (e : Env) (x : Bytes) (hx : x.head? ≠ some 10) (st : Found) : ∀ (n : Nat) (sep : Bytes) (f : Nat),
    sep.length ≤ n → Sep sep → sep.length + x.length < f →
    ∃ q s' f', Sep s' ∧ sep = q ++ s' ∧ s'.length + x.length < f' ∧
      findLoop c e f (sep ++ x) st = findLoop c e f' (s' ++ x) st ∧ readToken parserKeywords (s' ++ x) = readToken parserKeywords x := by
  intro n
  induction n with
  | zero =>
    intro sep f hn hs hf
    have : sep = [] := List.length_eq_zero_iff.mp (by omega)
    subst this
    exact ⟨[], [], f, .nil, rfl, hf, rfl, rfl⟩
  | succ n ih =>
    intro sep f hn hs hf
    rcases sep_step parserKeywords x hx sep.length sep (Nat.le_refl _) hs with h | ⟨q, s', h1, h2, h3, h4⟩
    · exact ⟨[], sep, f, hs, rfl, hf, rfl, h⟩
    · have hl : q.length ≠ 0 := by simpa using h2
      have hlen : sep.length = q.length + s'.length := by rw [h3]; simp
      cases f with
      | zero => omega
      | succ f =>
        obtain ⟨q', s'', f', g1, g2, g3, g4, g5⟩ := ih s' f (by omega) h1 (by omega)
        refine ⟨q ++ q', s'', f', g1, by rw [h3, g2]; simp, g3, ?_, g5⟩
        rw [← g4]
        rw [findLoop, findRound, h4]
        rfl


theorem findLoop_step {c : Codec} {e : Env} {s r : Bytes} {st st' : Found} (f : Nat) (h : findRound c e s st = .ok (some (st', r))) :
    findLoop c e (f + 1) s st = findLoop c e f r st' := by
  rw [findLoop, h]; rfl

theorem findLoop_stop {c : Codec} {e : Env} {s : Bytes} {st : Found} (f : Nat) (h : findRound c e s st = .ok none) :
    findLoop c e (f + 1) s st = .ok st := by
  rw [findLoop, h]; rfl

/-! ### other lines -/

theorem plainWord_first : ∀ c : UInt8, ¬ IsDigit c ∧ c ∉ ([43, 45, 46] : List UInt8) →
    (isNumeric c || c == 0x2B || c == 0x2D || c == 0x2E) = false := by
  intro c h
  have := isDigit_iff c
  simp at h
  cases hn : isNumeric c with
  | true => exact absurd (this.mpr hn) h.1
  | false => simp [h.2]

theorem readToken_plain {w : Bytes} (h : PlainWord w) (rest : Bytes) (hr : EndsToken rest) :
    readToken parserKeywords (w ++ rest) = .ok (⟨dictFind parserKeywords w, w⟩, rest) := by
  obtain ⟨h1, h2, h3⟩ := h
  cases w with
  | nil => exact absurd rfl h1
  | cons c w =>
    have reg : ∀ d ∈ c :: w, isRegular d = true := by
      intro d hd
      cases hh : isRegular d with
      | true => rfl
      | false => exact absurd ((isRegular_iff d).mp hh) (h2 d hd)
    exact readToken_keyword parserKeywords c w rest (reg c (by simp)) (plainWord_first c (h3 c (by simp)))
      (fun d hd => reg d (by simp [hd])) hr

theorem dictFind_word (w : Bytes) : dictFind parserKeywords w = .keyword w ∨ dictFind parserKeywords w = .unknown := by
  unfold dictFind; split <;> simp

theorem lineEnd_ends {e : Bytes} (he : e ∈ lineEnds) (t : Bytes) : EndsToken (e ++ t) := by
  simp only [lineEnds, List.mem_cons, List.not_mem_nil, or_false] at he
  rcases he with rfl | rfl | rfl <;> (intro d hd; simp at hd; subst hd; decide)

theorem ends_append {a : Bytes} (ha : EndsToken a) {b : Bytes} (hb : EndsToken b) : EndsToken (a ++ b) := by
  cases a with
  | nil => exact hb
  | cons c a => intro d hd; exact ha d (by simpa using hd)

theorem blanks_ends {b : Bytes} (hb : Blanks b) (hne : b ≠ []) (x : Bytes) : EndsToken (b ++ x) := by
  cases b with
  | nil => exact absurd rfl hne
  | cons c b =>
    intro d hd; simp at hd; subst hd
    have := hb c (by simp)
    simp only [List.mem_cons, List.not_mem_nil, or_false] at this
    rcases this with rfl | rfl | rfl | rfl <;> decide

theorem blanks_ends' {b : Bytes} (hb : Blanks b) {x : Bytes} (hx : EndsToken x) : EndsToken (b ++ x) := by
  by_cases h : b = []
  · subst h; exact hx
  · exact blanks_ends hb h x

theorem readToken_lineEnd {e t : Bytes} (he : e ∈ lineEnds) (ht : e = [13] → t.head? ≠ some 10) :
    readToken parserKeywords (e ++ t) = .ok (⟨.eol, []⟩, t) := by
  simp only [lineEnds, List.mem_cons, List.not_mem_nil, or_false] at he
  rcases he with rfl | rfl | rfl
  · rfl
  · exact readToken_cr _ _ (ht rfl)
  · rfl

theorem readLine_lineEnd {l e t : Bytes} (hl : ∀ c ∈ l, c ≠ 13 ∧ c ≠ 10) (he : e ∈ lineEnds) (ht : e = [13] → t.head? ≠ some 10) :
    readLine (l ++ (e ++ t)) = (l, t) := by
  apply readLine_of_first
  simp only [lineEnds, List.mem_cons, List.not_mem_nil, or_false] at he
  rcases he with rfl | rfl | rfl
  · exact ⟨hl, Or.inr (Or.inl (by simp))⟩
  · exact ⟨hl, Or.inr (Or.inr (Or.inl ⟨by simp, ht rfl⟩))⟩
  · exact ⟨hl, Or.inl (by simp)⟩

theorem skipLine_lineEnd {l e t : Bytes} (tok : Token) (s : Bytes) (hl : ∀ c ∈ l, c ≠ 13 ∧ c ≠ 10) (he : e ∈ lineEnds)
    (ht : e = [13] → t.head? ≠ some 10) : skipLine tok s (l ++ (e ++ t)) = .ok t := by
  have hne : (l ++ (e ++ t)).isEmpty = false := by
    have : e ≠ [] := by rintro rfl; simp [lineEnds] at he
    cases e with
    | nil => exact absurd rfl this
    | cons a e => simp
  rw [skipLine, hne, readLine_lineEnd hl he ht]; rfl

/-- A word in the place of a generation or of `obj`. -/
theorem skipRest_word {w l e t : Bytes} (s : Bytes) (hl : ∀ c ∈ l, c ≠ 13 ∧ c ≠ 10) (he : e ∈ lineEnds)
    (ht : e = [13] → t.head? ≠ some 10) : skipRest ⟨dictFind parserKeywords w, w⟩ s (l ++ (e ++ t)) = .ok t := by
  rw [skipRest, if_neg]
  · exact skipLine_lineEnd _ _ hl he ht
  · rcases dictFind_word w with h | h <;> simp [h]

theorem round_line (c : Codec) (e : Env) {l el t s : Bytes} (st : Found) (h : OtherLine l) (hl : ∀ c ∈ l, c ≠ 13 ∧ c ≠ 10)
    (he : el ∈ lineEnds) (ht : el = [13] → t.head? ≠ some 10)
    (hs : readToken parserKeywords s = readToken parserKeywords (l ++ el ++ t)) :
    findRound c e s st = .ok (some (st, t)) := by
  have hends := lineEnd_ends he t
  cases h with
  | word w tail h1 h2 h3 h4 =>
    have e1 : w ++ tail ++ el ++ t = w ++ (tail ++ (el ++ t)) := by simp
    rw [findRound, hs, e1, readToken_plain h1 _ (ends_append h4 hends), ok_bind]
    dsimp only
    have hk := skipLine_lineEnd ⟨dictFind parserKeywords w, w⟩ s (fun c hc => hl c (by simp [hc])) he ht (l := tail)
    rcases dictFind_word w with h | h
    all_goals
      rw [h] at hk ⊢
      rw [if_neg (by simp), if_neg (by simp), if_neg (by simp [h2]), if_neg (by simp [h3]), if_neg (by simp), hk]
      rfl
  | number i u b h1 h2 =>
    have e1 : u ++ b ++ el ++ t = u ++ (b ++ (el ++ t)) := by simp
    rw [findRound, hs, e1, readToken_int parserKeywords h1 _ (blanks_ends' h2 hends), ok_bind]
    dsimp only
    rw [if_neg (by simp), if_neg (by simp), if_neg (by simp), if_neg (by simp), if_pos (by simp),
      readToken_blanks _ _ _ h2, readToken_lineEnd he ht, ok_bind]
    rfl
  | numberWord i u b w tail h1 h2 h3 h4 h5 =>
    have e1 : u ++ b ++ w ++ tail ++ el ++ t = u ++ (b ++ (w ++ (tail ++ (el ++ t)))) := by simp
    rw [findRound, hs, e1, readToken_int parserKeywords h1 _ (blanks_ends h2 h3 _), ok_bind]
    dsimp only
    rw [if_neg (by simp), if_neg (by simp), if_neg (by simp), if_neg (by simp), if_pos (by simp),
      readToken_blanks _ _ _ h2, readToken_plain h4 _ (ends_append h5 hends), ok_bind]
    dsimp only
    rw [if_neg (by rcases dictFind_word w with h | h <;> simp [h]),
      skipRest_word _ (fun c hc => hl c (by simp [hc])) he ht (l := tail)]
    rfl
  | numbers i j u b v b' h1 h2 h3 h4 h5 =>
    have e1 : u ++ b ++ v ++ b' ++ el ++ t = u ++ (b ++ (v ++ (b' ++ (el ++ t)))) := by simp
    rw [findRound, hs, e1, readToken_int parserKeywords h1 _ (blanks_ends h2 h3 _), ok_bind]
    dsimp only
    rw [if_neg (by simp), if_neg (by simp), if_neg (by simp), if_neg (by simp), if_pos (by simp),
      readToken_blanks _ _ _ h2, readToken_int parserKeywords h4 _ (blanks_ends' h5 hends), ok_bind]
    dsimp only
    rw [if_pos (by simp), readToken_blanks _ _ _ h5, readToken_lineEnd he ht, ok_bind]
    rfl
  | numbersWord i j u b v b' w tail h1 h2 h3 h4 h5 h6 h7 h8 h9 =>
    have e1 : u ++ b ++ v ++ b' ++ w ++ tail ++ el ++ t = u ++ (b ++ (v ++ (b' ++ (w ++ (tail ++ (el ++ t)))))) := by simp
    rw [findRound, hs, e1, readToken_int parserKeywords h1 _ (blanks_ends h2 h3 _), ok_bind]
    dsimp only
    rw [if_neg (by simp), if_neg (by simp), if_neg (by simp), if_neg (by simp), if_pos (by simp),
      readToken_blanks _ _ _ h2, readToken_int parserKeywords h4 _ (blanks_ends h5 h6 _), ok_bind]
    dsimp only
    rw [if_pos (by simp), readToken_blanks _ _ _ h5, readToken_plain h7 _ (ends_append h9 hends), ok_bind]
    dsimp only
    rw [if_neg (by rcases dictFind_word w with h | h <;> simp [h, h8]),
      skipRest_word _ (fun c hc => hl c (by simp [hc])) he ht (l := tail)]
    rfl

/-! ### trailers and `startxref` -/

theorem dictText_read (e : Env) {d : Dict} {t : Bytes} (h : Denotes (.dict d) t) (rest : Bytes) :
    ∃ u, readTokenSkip parserKeywords (t ++ rest) = .ok (⟨.dictBegin, []⟩, u) ∧ readDict e (2 * u.length + 2) u [] = .ok (d, rest) := by
  cases h with
  | dict es _ s he hsort hval =>
    refine ⟨s ++ 62 :: 62 :: rest, ?_, ?_⟩
    · have : 60 :: 60 :: (s ++ [62, 62]) ++ rest = 60 :: 60 :: (s ++ 62 :: 62 :: rest) := by simp
      rw [this]
      exact readTokenSkip_of_token rfl (by decide)
    · rw [(entries_parse e he rest).1 [] _ (by simp; omega)]
      have hd : buildDict [] es = d := by
        obtain ⟨b1, b2⟩ := buildDict_spec es [] List.Pairwise.nil
        apply sorted_ext b1 hsort
        intro k; rw [b2 k, ← valueAt_eq k d, hval k]; rfl
      rw [hd]

theorem dict_head {d : Dict} {t : Bytes} (h : Denotes (.dict d) t) : ∃ u, t = 60 :: u := by
  cases h with
  | dict es _ s he hsort hval => exact ⟨_, rfl⟩

theorem round_trailer (c : Codec) (e : Env) {d : Dict} {sep x t s : Bytes} (st : Found) (h1 : Sep sep) (h2 : Denotes (.dict d) x)
    (hs : readToken parserKeywords s = readToken parserKeywords (b! "trailer" ++ sep ++ x ++ t)) :
    findRound c e s st = .ok (some ({ st with trailer := d }, t)) := by
  obtain ⟨u, rfl⟩ := dict_head h2
  have e1 : b! "trailer" ++ sep ++ (60 :: u) ++ t = (0x74 :: b! "railer") ++ (sep ++ 60 :: (u ++ t)) := by simp
  have k := readToken_keyword parserKeywords 0x74 (b! "railer") (sep ++ 60 :: (u ++ t)) (by decide) (by decide) (by decide)
    (ends_delim 60 _ (by decide) h1)
  rw [findRound, hs, e1, k, ok_bind]
  dsimp only
  rw [if_neg (by decide), if_neg (by decide), if_pos (by decide)]
  obtain ⟨v, k1, k2⟩ := dictText_read e h2 t
  have k3 : readTokenSkip parserKeywords (sep ++ 60 :: (u ++ t)) = .ok (⟨.dictBegin, []⟩, v) := by
    rw [readTokenSkip_sep _ _ _ h1]; exact k1
  rw [expectSkip_token k3, ok_bind]
  dsimp only
  rw [k2, ok_bind]
  rfl

theorem round_startxref (c : Codec) (e : Env) {i : Int} {sep x t s : Bytes} (st : Found) (h1 : Sep sep) (h2 : sep ≠ [])
    (h3 : IntText i x) (h4 : -9223372036854775808 ≤ i) (h5 : i ≤ 9223372036854775807) (h6 : EndsToken t)
    (hs : readToken parserKeywords s = readToken parserKeywords (b! "startxref" ++ sep ++ x ++ t)) :
    findRound c e s st = .ok (some ({ st with last := some i }, t)) := by
  have e1 : b! "startxref" ++ sep ++ x ++ t = (0x73 :: b! "tartxref") ++ (sep ++ (x ++ t)) := by simp
  have k := readToken_keyword parserKeywords 0x73 (b! "tartxref") (sep ++ (x ++ t)) (by decide) (by decide) (by decide)
    (sep_ends sep _ h1 h2)
  rw [findRound, hs, e1, k, ok_bind]
  dsimp only
  rw [if_neg (by decide), if_neg (by decide), if_neg (by decide), if_pos (by decide), skip_int h1 h3 t h6, ok_bind]
  dsimp only
  rw [if_pos (by decide), stoll_text h3 h4 h5, ok_bind]
  rfl


/-! ### streams -/

theorem readStreamPart_text (e : Env) (d : Dict) (pre s1 e1 body s2 rest : Bytes)
    (hw : e.whole = pre ++ (s1 ++ (b! "stream" ++ (e1 ++ (body ++ (s2 ++ (b! "endstream" ++ rest))))))) (h1 : Sep s1)
    (he : e1 ∈ ([[10], [13, 10]] : List (List UInt8))) (h2 : Sep s2) (hr : EndsToken rest)
    (hl : mapFind (b! "Length") d = some (.int body.length)) :
    readStreamPart e d (s1 ++ (b! "stream" ++ (e1 ++ (body ++ (s2 ++ (b! "endstream" ++ rest)))))) =
      .ok (.stream d (pre ++ s1 ++ b! "stream" ++ e1).length, rest) := by
  have hee : EndsToken (e1 ++ (body ++ (s2 ++ (b! "endstream" ++ rest)))) := lineEnd_ends (by
    simp only [lineEnds, List.mem_cons, List.not_mem_nil, or_false] at he ⊢; tauto) _
  have k1 := skip_keyword h1 0x73 (b! "tream") (e1 ++ (body ++ (s2 ++ (b! "endstream" ++ rest))))
    (by decide) (by decide) (by decide) hee
  have k2 : readToken parserKeywords (e1 ++ (body ++ (s2 ++ (b! "endstream" ++ rest)))) =
      .ok (⟨.eol, []⟩, body ++ (s2 ++ (b! "endstream" ++ rest))) := by
    simp only [List.mem_cons, List.not_mem_nil, or_false] at he
    rcases he with rfl | rfl <;> rfl
  have k3 := skip_keyword h2 0x65 (b! "ndstream") rest (by decide) (by decide) (by decide) hr
  have hpos : e.pos (body ++ (s2 ++ (b! "endstream" ++ rest))) = (pre ++ s1 ++ b! "stream" ++ e1).length :=
    pos_suffix e _ _ (by rw [hw]; simp)
  have hseek : e.seek (((pre ++ s1 ++ b! "stream" ++ e1).length : Int) + (body.length : Int)) = s2 ++ (b! "endstream" ++ rest) := by
    have := seek_prefix e (pre ++ s1 ++ b! "stream" ++ e1 ++ body) (s2 ++ (b! "endstream" ++ rest)) (by rw [hw]; simp)
    rw [← this]; congr 1; simp; omega
  generalize hoff : (pre ++ s1 ++ b! "stream" ++ e1).length = off at hpos hseek ⊢
  rw [readStreamPart]
  erw [k1]
  rw [ok_bind]; dsimp only
  rw [if_pos (by decide), k2, ok_bind]; dsimp only
  rw [if_neg (by decide)]
  simp only [hpos, hl]
  rw [if_neg (by simp), asInt, ok_bind, hseek]
  erw [k3]
  rw [ok_bind]; dsimp only
  rw [if_pos (by decide)]
  rfl

theorem findSub_none {w : Bytes} (hw : w ≠ []) : ∀ {s : Bytes}, ¬ w <:+: s → findSub w s = none := by
  intro s
  induction s with
  | nil =>
    intro _
    cases w with
    | nil => exact absurd rfl hw
    | cons a w => rfl
  | cons c s ih =>
    intro h
    rw [findSub, if_neg, ih (fun hh => h (hh.trans (List.suffix_cons c s).isInfix))]
    · rfl
    · intro hp
      exact h (List.isPrefixOf_iff_prefix.mp hp).isInfix

theorem streamFallback_skip (e : Env) (d : Dict) (off : Nat) (tail : Bytes) (hh : tail.head? ≠ some 10) (hne : tail ≠ []) :
    ∀ (n : Nat) (body e2 : Bytes) (f : Nat), body.length ≤ n → ¬ b! "endstream" <:+: body → e2 ∈ lineEnds →
      (body ++ (e2 ++ tail)).length < f →
      ∃ f', tail.length < f' ∧ streamFallback e d off f (body ++ (e2 ++ tail)) = streamFallback e d off f' tail := by
  intro n
  induction n with
  | zero =>
    intro body e2 f hn _ he hf
    have : body = [] := List.length_eq_zero_iff.mp (by omega)
    subst this
    cases f with
    | zero => omega
    | succ f =>
      refine ⟨f, ?_, ?_⟩
      · have : e2 ≠ [] := by rintro rfl; simp [lineEnds] at he
        have := List.length_pos_iff.mpr this
        simp at hf; omega
      · have hr : readLine ([] ++ (e2 ++ tail)) = ([], tail) := readLine_lineEnd (by simp) he (fun _ => hh)
        have hne2 : ∃ a b, ([] : Bytes) ++ (e2 ++ tail) = a :: b := by
          cases e2 with
          | nil => simp [lineEnds] at he
          | cons a e2 => exact ⟨a, e2 ++ tail, rfl⟩
        obtain ⟨a, b, hab⟩ := hne2
        rw [hab] at hr ⊢
        rw [streamFallback]
        · simp only [hr]
          rfl
        · simp
  | succ n ih =>
    intro body e2 f hn hi he hf
    cases f with
    | zero => omega
    | succ f =>
    have he2 : 0 < e2.length := by
      apply List.length_pos_iff.mpr
      rintro rfl; simp [lineEnds] at he
    -- one line
    have step : ∀ l r : Bytes, readLine (body ++ (e2 ++ tail)) = (l, r) → l <:+: body →
        streamFallback e d off (f + 1) (body ++ (e2 ++ tail)) = streamFallback e d off f r := by
      intro l r hr hl
      have hne2 : body ++ (e2 ++ tail) ≠ [] := by simp [hne]
      obtain ⟨a, b, hab⟩ := List.exists_cons_of_ne_nil hne2
      rw [hab] at hr ⊢
      rw [streamFallback]
      · simp only [hr]
        rw [findSub_none (by decide) (fun h => hi (h.trans hl))]
      · simp
    have hsplit : ∃ l m, body = l ++ m ∧ (∀ c ∈ l, c ≠ 13 ∧ c ≠ 10) ∧ (m = [] ∨ ∃ c m', m = c :: m' ∧ (c = 13 ∨ c = 10)) := by
      clear hi hf hn ih step
      induction body with
      | nil => exact ⟨[], [], rfl, by simp, Or.inl rfl⟩
      | cons c body ih =>
        by_cases hc : c = 13 ∨ c = 10
        · exact ⟨[], c :: body, rfl, by simp, Or.inr ⟨c, body, rfl, hc⟩⟩
        · obtain ⟨l, m, h1, h2, h3⟩ := ih
          refine ⟨c :: l, m, by rw [h1]; rfl, ?_, h3⟩
          intro x hx
          simp at hx
          rcases hx with rfl | hx
          · exact not_or.mp hc
          · exact h2 x hx
    obtain ⟨l, m, rfl, hl, hm⟩ := hsplit
    have hlb : l <:+: l ++ m := (List.prefix_append l m).isInfix
    rcases hm with rfl | ⟨c, m', rfl, hc⟩
    · refine ⟨f, by simp at hf; omega, ?_⟩
      apply step l tail _ hlb
      have := readLine_lineEnd hl he (t := tail) (fun _ => hh)
      simpa using this
    · have hmi : ∀ q, q <:+ m' → ¬ b! "endstream" <:+: q := fun q hq hx =>
        hi (hx.trans ((hq.trans ((List.suffix_cons c m').trans (List.suffix_append l _))).isInfix))
      have next : ∀ q, q <:+ m' → readLine (l ++ c :: m' ++ (e2 ++ tail)) = (l, q ++ (e2 ++ tail)) →
          ∃ f', tail.length < f' ∧ streamFallback e d off (f + 1) (l ++ c :: m' ++ (e2 ++ tail)) = streamFallback e d off f' tail := by
        intro q hq hr
        have hql := hq.length_le
        rw [step l _ hr hlb]
        exact ih q e2 f (by simp at hn; omega) (hmi q hq) he (by simp at hf ⊢; omega)
      have first : ∀ (el r : Bytes), el ∈ lineEnds → (el = [13] → r.head? ≠ some 10) → l ++ c :: m' ++ (e2 ++ tail) = l ++ (el ++ r) →
          readLine (l ++ c :: m' ++ (e2 ++ tail)) = (l, r) := by
        intro el r h1 h2 h3
        rw [h3]; exact readLine_lineEnd hl h1 h2
      rcases hc with rfl | rfl
      · by_cases h10 : (m' ++ (e2 ++ tail)).head? = some 10
        · cases m' with
          | cons a m'' =>
            have : a = 10 := by simpa using h10
            subst this
            exact next m'' (List.suffix_cons _ _) (first [13, 10] _ (by simp [lineEnds]) (by simp) (by simp))
          | nil =>
            simp only [lineEnds, List.mem_cons, List.not_mem_nil, or_false] at he
            rcases he with rfl | rfl | rfl
            · refine ⟨f, by simp at hf; omega, ?_⟩
              exact step l tail (first [13, 10] _ (by simp [lineEnds]) (by simp) (by simp)) hlb
            · simp at h10
            · simp at h10
        · exact next m' (List.suffix_refl _) (first [13] _ (by simp [lineEnds]) (fun _ => h10) (by simp))
      · exact next m' (List.suffix_refl _) (first [10] _ (by simp [lineEnds]) (by simp) (by simp))

theorem mapInsert_keep {k : Bytes} {v w : Obj} {d : Dict} (hs : SortedKeys d) (h : mapFind k d = some w) : mapInsert k v d = d := by
  apply sorted_ext (mapInsert_sorted hs) hs
  intro q
  rw [mapFind_insert hs q]
  split
  · rename_i hq; rw [hq, h]
  · rfl

theorem streamFallback_found (e : Env) (d : Dict) (off : Nat) (pre rest : Bytes) (f : Nat) (hp : 2 ≤ pre.length)
    (hw : e.whole = pre ++ (b! "endstream" ++ rest)) (hini : e.initialized = false) (hs : SortedKeys d) {n g : Nat}
    (hl : mapFind (b! "Length") d = some (.ref n g)) (t : Token) (r : Bytes) {el r' : Bytes} (he : el ∈ lineEnds)
    (hr' : el = [13] → r'.head? ≠ some 10) (hrest : rest = el ++ r') (hpeek : readTokenSkip parserKeywords r' = .ok (t, r)) :
    streamFallback e d off (f + 1) (b! "endstream" ++ rest) = .ok (d, rest) := by
  have hline : readLine (b! "endstream" ++ rest) = (b! "endstream", r') := by
    rw [hrest]; exact readLine_lineEnd (by decide) he hr'
  have hpos := pos_suffix e pre _ hw
  have hback : (e.seek ((pre.length : Int) - 2)).drop 2 = b! "endstream" ++ rest := by
    unfold Env.seek
    rw [if_neg (by omega), hw, List.drop_drop]
    have : ((pre.length : Int) - 2).toNat + 2 = pre.length := by omega
    rw [this]; simp
  have hk := expectSkip_token (skip_keyword (p := []) .nil 0x65 (b! "ndstream") rest (by decide) (by decide) (by decide)
    (by rw [hrest]; exact lineEnd_ends he r'))
  have hcor : ∀ len, correctLength e d len = .ok d := by
    intro len
    unfold correctLength
    rw [hl]
    simp only [hini]
    rw [mapInsert_keep hs hl]; rfl
  have hcons : b! "endstream" ++ rest = 0x65 :: (b! "ndstream" ++ rest) := rfl
  have hf : findSub (b! "endstream") (b! "endstream") = some 0 := by decide
  rw [hcons] at hline hpos hback ⊢
  rw [streamFallback]
  case x_3 => intro h; cases h
  simp only [hline, hf]
  rw [hpeek, ok_bind]
  have hel : ∃ i : Int, endstreamLine e (0x65 :: (b! "ndstream" ++ rest)) r' 0 = .ok (i, rest) := by
    unfold endstreamLine
    simp only [hpos, hback]
    rw [if_pos (by simp)]
    erw [hk]
    exact ⟨_, rfl⟩
  obtain ⟨i, hi⟩ := hel
  rw [hi, ok_bind]
  dsimp only
  rw [hcor, ok_bind]
  rfl


theorem readStreamPart_search (e : Env) (d : Dict) (pre s1 e1 body e2 sep' rest : Bytes)
    (hw : e.whole = pre ++ (s1 ++ (b! "stream" ++ (e1 ++ (body ++ (e2 ++ (b! "endstream" ++ (sep' ++ (b! "endobj" ++ rest)))))))))
    (hini : e.initialized = false) (h1 : Sep s1)
    (he1 : e1 ∈ ([[10], [13, 10]] : List (List UInt8))) (he2 : e2 ∈ lineEnds) (h2 : Sep sep')
    (hh : ∃ c ∈ sep'.head?, c = 10 ∨ c = 13) (hr : EndsToken rest) (hs : SortedKeys d) {n g : Nat}
    (hl : mapFind (b! "Length") d = some (.ref n g)) (hb : ¬ b! "endstream" <:+: body) :
    readStreamPart e d (s1 ++ (b! "stream" ++ (e1 ++ (body ++ (e2 ++ (b! "endstream" ++ (sep' ++ (b! "endobj" ++ rest)))))))) =
      .ok (.stream d (pre ++ s1 ++ b! "stream" ++ e1).length, sep' ++ (b! "endobj" ++ rest)) := by
  have hee : EndsToken (e1 ++ (body ++ (e2 ++ (b! "endstream" ++ (sep' ++ (b! "endobj" ++ rest)))))) := lineEnd_ends (by
    simp only [lineEnds, List.mem_cons, List.not_mem_nil, or_false] at he1 ⊢; tauto) _
  have k1 := skip_keyword h1 0x73 (b! "tream") (e1 ++ (body ++ (e2 ++ (b! "endstream" ++ (sep' ++ (b! "endobj" ++ rest))))))
    (by decide) (by decide) (by decide) hee
  have k2 : readToken parserKeywords (e1 ++ (body ++ (e2 ++ (b! "endstream" ++ (sep' ++ (b! "endobj" ++ rest)))))) =
      .ok (⟨.eol, []⟩, body ++ (e2 ++ (b! "endstream" ++ (sep' ++ (b! "endobj" ++ rest))))) := by
    simp only [List.mem_cons, List.not_mem_nil, or_false] at he1
    rcases he1 with rfl | rfl <;> rfl
  have k3 : ∀ q, Sep q → readTokenSkip parserKeywords (q ++ (b! "endobj" ++ rest)) = .ok (⟨.keyword (b! "endobj"), b! "endobj"⟩, rest) :=
    fun q hq => skip_keyword hq 0x65 (b! "ndobj") rest (by decide) (by decide) (by decide) hr
  have hpos : e.pos (body ++ (e2 ++ (b! "endstream" ++ (sep' ++ (b! "endobj" ++ rest))))) = (pre ++ s1 ++ b! "stream" ++ e1).length :=
    pos_suffix e _ _ (by rw [hw]; simp)
  have hsplit : ∃ el r', el ∈ lineEnds ∧ (el = [13] → r'.head? ≠ some 10) ∧ sep' ++ (b! "endobj" ++ rest) = el ++ r' ∧
      ∃ t r, readTokenSkip parserKeywords r' = .ok (t, r) := by
    obtain ⟨c, hc, hcc⟩ := hh
    cases sep' with
    | nil => simp at hc
    | cons a q =>
      have : a = c := by simpa using hc
      subst this
      have hq : Sep q := by
        cases h2 with
        | ws _ _ _ h => exact h
        | comment => rcases hcc with h | h <;> exact absurd h (by decide)
      rcases hcc with rfl | rfl
      · exact ⟨[10], q ++ (b! "endobj" ++ rest), by simp [lineEnds], by simp, by simp, _, _, k3 q hq⟩
      · by_cases h10 : ∃ q', q = 10 :: q'
        · obtain ⟨q', rfl⟩ := h10
          have hq' : Sep q' := by
            cases hq with
            | ws _ _ _ h => exact h
          exact ⟨[13, 10], q' ++ (b! "endobj" ++ rest), by simp [lineEnds], by simp, by simp, _, _, k3 q' hq'⟩
        · refine ⟨[13], q ++ (b! "endobj" ++ rest), by simp [lineEnds], ?_, by simp, _, _, k3 q hq⟩
          intro _ hx
          cases q with
          | nil => simp at hx
          | cons a q => exact h10 ⟨q, by simp at hx; rw [hx]⟩
  obtain ⟨el, r', g1, g2, g3, t, r, g4⟩ := hsplit
  obtain ⟨f', hf', hskip⟩ := streamFallback_skip e d (pre ++ s1 ++ b! "stream" ++ e1).length
    (b! "endstream" ++ (sep' ++ (b! "endobj" ++ rest))) (by simp) (by simp) body.length body e2
    ((body ++ (e2 ++ (b! "endstream" ++ (sep' ++ (b! "endobj" ++ rest))))).length + 1) (Nat.le_refl _) hb he2 (Nat.lt_succ_self _)
  have hfound : streamFallback e d (pre ++ s1 ++ b! "stream" ++ e1).length f' (b! "endstream" ++ (sep' ++ (b! "endobj" ++ rest))) =
      .ok (d, sep' ++ (b! "endobj" ++ rest)) := by
    cases f' with
    | zero => omega
    | succ f' =>
      exact streamFallback_found e d _ (pre ++ s1 ++ b! "stream" ++ e1 ++ body ++ e2) _ f' (by simp; omega)
        (by rw [hw]; simp) hini hs hl t r g1 g2 g3 g4
  rw [hfound] at hskip
  generalize hoff : (pre ++ s1 ++ b! "stream" ++ e1).length = off at hpos hskip ⊢
  rw [readStreamPart]
  erw [k1]
  rw [ok_bind]; dsimp only
  rw [if_pos (by decide), k2, ok_bind]; dsimp only
  rw [if_neg (by decide)]
  simp only [hpos, hl]
  rw [if_pos (by simp [hini]), hskip, ok_bind]
  rfl

/-! ### objects -/

/-- The object an entry holds is a value of the file. -/
def HeldAs (whole : Bytes) : PObj → SObj → Prop
  | .direct o, v => v = .direct o
  | .stream d off, v => ∃ body, v = .stream d body ∧ (whole.drop off).take body.length = body ∧
      (valueAt (b! "Length") d = some (.int body.length) ∨ ∃ n g, valueAt (b! "Length") d = some (.ref n g))

theorem foundSection_other (c : Codec) (e : Env) {d : Dict} (off : Nat) (h : NotXref d) : foundSection c e (.stream d off) = .ok [] := by
  rw [foundSection]
  rcases h with h | ⟨t, h, ht⟩
  · rw [valueAt_eq] at h; rw [h]
  · rw [valueAt_eq] at h; rw [h]
    simp [ht]

theorem dict_sorted {d : Dict} {t : Bytes} (h : Denotes (.dict d) t) : SortedKeys d := by
  cases h with
  | dict es _ s he hsort hval => exact hsort

theorem ends_of_head {a b : Bytes} (x : Bytes) (ha : a ++ b ≠ []) (h : EndsToken (a ++ b)) : EndsToken (a ++ (b ++ x)) := by
  rw [← List.append_assoc]
  cases hh : a ++ b with
  | nil => exact absurd hh ha
  | cons c q =>
    rw [hh] at h
    intro d hd
    exact h d (by simpa using hd)

theorem objectText_ends {v : SObj} {x : Bytes} (h : ObjectText v x) (rest : Bytes) : EndsToken (x ++ rest) := by
  cases h with
  | direct o sep t sep' h1 h2 h3 h4 h5 =>
    have := ends_of_head (sep' ++ rest) (by simp [denotes_ne h2]) h4
    simpa using this
  | stream d body sep t s1 e1 s2 sep' h1 h2 _ _ _ _ _ _ _ =>
    obtain ⟨u, rfl⟩ := dict_head h2
    have := ends_delim 60 (u ++ s1 ++ b! "stream" ++ e1 ++ body ++ s2 ++ b! "endstream" ++ sep' ++ rest) (by decide) h1
    simpa using this
  | streamRef d body sep t s1 e1 e2 sep' n g h1 h2 _ _ _ _ _ _ _ _ =>
    obtain ⟨u, rfl⟩ := dict_head h2
    have := ends_delim 60 (u ++ s1 ++ b! "stream" ++ e1 ++ body ++ e2 ++ b! "endstream" ++ sep' ++ rest) (by decide) h1
    simpa using this

theorem parse_objectText (c : Codec) (e : Env) (hini : e.initialized = false) {v : SObj} {x : Bytes} (h : ObjectText v x) (pre rest : Bytes)
    (hw : e.whole = pre ++ (x ++ (b! "endobj" ++ rest))) (hr : EndsToken rest) :
    ∃ p r t, parse e (x ++ (b! "endobj" ++ rest)) = .ok (p, r) ∧ readTokenSkip parserKeywords r = .ok (t, rest) ∧
      foundSection c e p = .ok [] ∧ HeldAs e.whole p v := by
  have k3 : ∀ q, Sep q → readTokenSkip parserKeywords (q ++ (b! "endobj" ++ rest)) = .ok (⟨.keyword (b! "endobj"), b! "endobj"⟩, rest) :=
    fun q hq => skip_keyword hq 0x65 (b! "ndobj") rest (by decide) (by decide) (by decide) hr
  cases h with
  | direct o sep t sep' h1 h2 h3 h4 h5 =>
    refine ⟨.direct o, sep' ++ (b! "endobj" ++ rest), _, ?_, k3 sep' h3, rfl, rfl⟩
    have hb : Boundary t (sep' ++ (b! "endobj" ++ rest)) := by
      rcases h5 with h5 | h5
      · exact Or.inl h5
      · exact Or.inr (ends_of_head rest (by simp) h5)
    have hf : Follow (sep' ++ (b! "endobj" ++ rest)) := follow_of_token (k3 sep' h3) (by decide) (by decide) (by decide)
    have e1 : sep ++ t ++ sep' ++ (b! "endobj" ++ rest) = sep ++ (t ++ (sep' ++ (b! "endobj" ++ rest))) := by simp
    rw [parse, e1, readDirect_sep _ _ _ h1, (denotes_parses e h2 _ hb hf).1 _ (by simp; omega)]
  | stream d body sep t s1 e1 s2 sep' h1 h2 h3 h4 h5 h6 h7 h8 h9 =>
    have assoc : sep ++ t ++ s1 ++ b! "stream" ++ e1 ++ body ++ s2 ++ b! "endstream" ++ sep' ++ (b! "endobj" ++ rest) =
        sep ++ (t ++ (s1 ++ (b! "stream" ++ (e1 ++ (body ++ (s2 ++ (b! "endstream" ++ (sep' ++ (b! "endobj" ++ rest))))))))) := by simp
    rw [assoc] at hw ⊢
    have hl := h9
    rw [valueAt_eq] at hl
    have key := readStreamPart_text e d (pre ++ sep ++ t) s1 e1 body s2 (sep' ++ (b! "endobj" ++ rest)) (by rw [hw]; simp) h3 h4 h5
      (sep_ends _ _ h6 h7) hl
    refine ⟨.stream d (pre ++ sep ++ t ++ s1 ++ b! "stream" ++ e1).length, _, _, ?_, k3 sep' h6, foundSection_other c e _ h8, body, rfl, ?_, Or.inl h9⟩
    · rw [parse, readDirect_sep _ _ _ h1, readDirect_dict e h2 _ _ (by simp; omega)]
      exact key
    · have : e.whole = (pre ++ sep ++ t ++ s1 ++ b! "stream" ++ e1) ++ (body ++ (s2 ++ (b! "endstream" ++ (sep' ++ (b! "endobj" ++ rest))))) := by
        rw [hw]; simp
      rw [this, List.drop_left, List.take_left]
  | streamRef d body sep t s1 e1 e2 sep' n g h1 h2 h3 h4 h5 h6 h7 h8 h9 h10 =>
    have assoc : sep ++ t ++ s1 ++ b! "stream" ++ e1 ++ body ++ e2 ++ b! "endstream" ++ sep' ++ (b! "endobj" ++ rest) =
        sep ++ (t ++ (s1 ++ (b! "stream" ++ (e1 ++ (body ++ (e2 ++ (b! "endstream" ++ (sep' ++ (b! "endobj" ++ rest))))))))) := by simp
    rw [assoc] at hw ⊢
    have hl := h9
    rw [valueAt_eq] at hl
    have key := readStreamPart_search e d (pre ++ sep ++ t) s1 e1 body e2 sep' rest (by rw [hw]; simp) hini h3 h4 h5 h6 h7 hr
      (dict_sorted h2) hl h10
    refine ⟨.stream d (pre ++ sep ++ t ++ s1 ++ b! "stream" ++ e1).length, _, _, ?_, k3 sep' h6, foundSection_other c e _ h8, body, rfl, ?_, Or.inr ⟨n, g, h9⟩⟩
    · rw [parse, readDirect_sep _ _ _ h1, readDirect_dict e h2 _ _ (by simp; omega)]
      exact key
    · have : e.whole = (pre ++ sep ++ t ++ s1 ++ b! "stream" ++ e1) ++ (body ++ (e2 ++ (b! "endstream" ++ (sep' ++ (b! "endobj" ++ rest))))) := by
        rw [hw]; simp
      rw [this, List.drop_left, List.take_left]

theorem round_object (c : Codec) (e : Env) (hini : e.initialized = false) {n g : Nat} {v : SObj} {x : Bytes} (h : IndirectText n g v x)
    (pre s' t : Bytes) (st : Found) (hs' : Sep s') (hw : e.whole = pre ++ (s' ++ (x ++ t))) (ht : EndsToken t)
    (hs : readToken parserKeywords (s' ++ (x ++ t)) = readToken parserKeywords (x ++ t)) :
    ∃ p, findRound c e (s' ++ (x ++ t)) st = .ok (some ({ st with entries := addFound ⟨n, g, pre.length, p⟩ st.entries }, t)) ∧
      HeldAs e.whole p v ∧ FoundAt e.whole pre.length n g v := by
  have hat : FoundAt e.whole pre.length n g v := ⟨s', x, t, hs', h, by rw [hw, List.drop_left]; simp⟩
  cases h with
  | mk tn b1 tg b2 y h1 h2 h3 h4 h5 h6 h7 h8 h9 =>
    have assoc : tn ++ b1 ++ tg ++ b2 ++ b! "obj" ++ y ++ b! "endobj" ++ t =
      tn ++ (b1 ++ (tg ++ (b2 ++ (b! "obj" ++ (y ++ (b! "endobj" ++ t)))))) := by simp
    rw [assoc] at hw hs ⊢
    obtain ⟨p, r, tok, q1, q2, q3, q4⟩ := parse_objectText c e hini h9 (pre ++ s' ++ tn ++ b1 ++ tg ++ b2 ++ b! "obj") t
      (by rw [hw]; simp) ht
    refine ⟨p, ?_, q4, hat⟩
    have k1 := readToken_int parserKeywords h1 (b1 ++ (tg ++ (b2 ++ (b! "obj" ++ (y ++ (b! "endobj" ++ t)))))) (blanks_ends h3 h4 _)
    have k2 := readToken_int parserKeywords h5 (b2 ++ (b! "obj" ++ (y ++ (b! "endobj" ++ t)))) (blanks_ends h7 h8 _)
    have k3 : readToken parserKeywords (b! "obj" ++ (y ++ (b! "endobj" ++ t))) = .ok (⟨.keyword (b! "obj"), b! "obj"⟩, y ++ (b! "endobj" ++ t)) :=
      readToken_keyword parserKeywords 0x6F (b! "bj") (y ++ (b! "endobj" ++ t)) (by decide) (by decide) (by decide) (objectText_ends h9 _)
    have hpos := pos_suffix e pre _ hw
    rw [findRound, hs, k1, ok_bind]
    dsimp only
    rw [if_neg (by simp), if_neg (by simp), if_neg (by simp), if_neg (by simp), if_pos (by simp), readToken_blanks _ _ _ h3, k2, ok_bind]
    dsimp only
    rw [if_pos (by simp), readToken_blanks _ _ _ h7, k3, ok_bind]
    dsimp only
    rw [if_pos (by simp), findObject, stoull_text h1 (by omega), ok_bind, stoull_text h5 (by omega), ok_bind, if_neg (by omega)]
    show (parse e (y ++ (b! "endobj" ++ t)) >>= _) >>= _ = _
    rw [q1, ok_bind]
    dsimp only
    rw [q3, ok_bind, q2, ok_bind]
    dsimp only
    rw [hpos]
    simp
    rfl


/-! ### the whole file -/

/-- The entries found are those of the objects of the file, in their order. -/
def Matches (whole : Bytes) : List FoundEntry → List FilePart → Prop
  | xs, [] => xs = []
  | xs, .trailer _ :: ps => Matches whole xs ps
  | xs, .object n g v :: ps => ∃ x xs', xs = x :: xs' ∧ x.num = n ∧ x.gen = g ∧ HeldAs whole x.obj v ∧ FoundAt whole x.off n g v ∧
      Matches whole xs' ps

theorem findLoop_text (c : Codec) (e : Env) (hini : e.initialized = false) {ps : List FilePart} {t : Bytes} (h : FileText ps t) :
    ∀ (pre sep : Bytes) (f : Nat) (st : Found), Sep sep → e.whole = pre ++ (sep ++ t) → sep.length + t.length < f →
    ∃ xs l, findLoop c e f (sep ++ t) st =
        .ok ⟨xs.foldl (fun es x => addFound x es) st.entries, (lastTrailer ps).getD st.trailer, l, st.streams⟩ ∧ Matches e.whole xs ps := by
  induction h with
  | done =>
    intro pre sep f st hs hw hf
    obtain ⟨q, s', f', g1, g2, g3, g4, g5⟩ := findLoop_sep c e [] (by simp) st sep.length sep f (Nat.le_refl _) hs hf
    refine ⟨[], st.last, ?_, rfl⟩
    rw [g4]
    cases f' with
    | zero => omega
    | succ f' =>
      rw [findLoop_stop]
      · rfl
      · rw [findRound, g5]; rfl
  | comment body hb =>
    intro pre sep f st hs hw hf
    obtain ⟨q, s', f', g1, g2, g3, g4, g5⟩ := findLoop_sep c e (37 :: body) (by simp) st sep.length sep f (Nat.le_refl _) hs hf
    refine ⟨[], st.last, ?_, rfl⟩
    rw [g4]
    cases f' with
    | zero => omega
    | succ f' =>
      have hk : readToken parserKeywords (37 :: body) = readToken parserKeywords [] := by
        apply readToken_congr
        have := skipBlank_comment body [] hb
        simp at this
        have h2 : skipBlank false (37 :: body) = skipBlank true body := by rw [skipBlank.eq_def]; simp
        rw [h2, this]; rfl
      rw [findLoop_stop]
      · rfl
      · rw [findRound, g5, hk]; rfl
  | sep s ps t h1 h2 ih =>
    intro pre sep f st hs hw hf
    have := ih pre (sep ++ s) f st (sep_append hs h1) (by rw [hw]; simp) (by simp at hf ⊢; omega)
    simpa using this
  | line l el ps t h1 h2 h3 h4 h5 ih =>
    intro pre sep f st hs hw hf
    have hl : 0 < el.length := by
      apply List.length_pos_iff.mpr
      rintro rfl; simp [lineEnds] at h3
    have hx : (l ++ el ++ t).head? ≠ some 10 := by
      intro hh
      cases l with
      | nil =>
        have : ∀ y : Bytes, OtherLine y → y ≠ [] := by
          intro y hy
          have hint : ∀ {i : Int} {u : Bytes}, IntText i u → u ≠ [] := by
            intro i u hu; obtain ⟨ds, hd, -, h | h | h⟩ := hu <;> simp [h.1, hd]
          cases hy with
          | word w tail a1 _ _ _ => simp [a1.1]
          | number i u b a1 _ => simp [hint a1]
          | numberWord i u b w tail a1 _ _ _ _ => simp [hint a1]
          | numbers i j u b v b' a1 _ _ _ _ => simp [hint a1]
          | numbersWord i j u b v b' w tail a1 _ _ _ _ _ _ _ _ => simp [hint a1]
        exact this [] h1 rfl
      | cons a l =>
        have : a = 10 := by simpa using hh
        exact (h2 a (by simp)).2 this
    obtain ⟨q, s', f', g1, g2, g3, g4, g5⟩ := findLoop_sep c e (l ++ el ++ t) hx st sep.length sep f (Nat.le_refl _) hs hf
    cases f' with
    | zero => omega
    | succ f' =>
      obtain ⟨xs, m, i1, i2⟩ := ih (pre ++ sep ++ l ++ el) [] f' st .nil (by rw [hw]; simp) (by simp at g3 ⊢; omega)
      refine ⟨xs, m, ?_, i2⟩
      rw [g4, findLoop_step f' (round_line c e st h1 h2 h3 h4 g5)]
      exact i1
  | trailer d sp x ps t h1 h2 h3 ih =>
    intro pre sep f st hs hw hf
    obtain ⟨q, s', f', g1, g2, g3, g4, g5⟩ := findLoop_sep c e (b! "trailer" ++ sp ++ x ++ t) (by simp) st sep.length sep f (Nat.le_refl _) hs hf
    cases f' with
    | zero => omega
    | succ f' =>
      obtain ⟨xs, m, i1, i2⟩ := ih (pre ++ sep ++ b! "trailer" ++ sp ++ x) [] f' { st with trailer := d } .nil (by rw [hw]; simp)
        (by simp at g3 ⊢; omega)
      refine ⟨xs, m, ?_, i2⟩
      rw [g4, findLoop_step f' (round_trailer c e st h1 h2 g5)]
      rw [List.nil_append] at i1
      rw [i1, lastTrailer]
      cases lastTrailer ps <;> rfl
  | startxref i sp x ps t h1 h2 h3 h4 h5 h6 h7 ih =>
    intro pre sep f st hs hw hf
    obtain ⟨q, s', f', g1, g2, g3, g4, g5⟩ := findLoop_sep c e (b! "startxref" ++ sp ++ x ++ t) (by simp) st sep.length sep f (Nat.le_refl _) hs hf
    cases f' with
    | zero => omega
    | succ f' =>
      obtain ⟨xs, m, i1, i2⟩ := ih (pre ++ sep ++ b! "startxref" ++ sp ++ x) [] f' { st with last := some i } .nil (by rw [hw]; simp)
        (by simp at g3 ⊢; omega)
      refine ⟨xs, m, ?_, i2⟩
      rw [g4, findLoop_step f' (round_startxref c e st h1 h2 h3 h4 h5 h6 g5)]
      exact i1
  | object n g v x ps t h1 h2 h3 ih =>
    intro pre sep f st hs hw hf
    have hx : (x ++ t).head? ≠ some 10 ∧ 0 < x.length := by
      cases h1 with
      | mk tn b1 tg b2 y a1 _ _ _ _ _ _ _ _ =>
        obtain ⟨c, ds, rfl, r1, -, -, -⟩ := intText_cons a1
        refine ⟨?_, by simp⟩
        intro hh
        have : c = 10 := by simpa using hh
        subst this
        exact absurd r1 (by decide)
    obtain ⟨q, s', f', g1, g2, g3, g4, g5⟩ := findLoop_sep c e (x ++ t) hx.1 st sep.length sep f (Nat.le_refl _) hs hf
    cases f' with
    | zero => omega
    | succ f' =>
      obtain ⟨p, k1, k2, k3⟩ := round_object c e hini h1 (pre ++ q) s' t st g1 (by rw [hw, g2]; simp) h2 g5
      obtain ⟨xs, m, i1, i2⟩ := ih (pre ++ sep ++ x) [] f' _ .nil (by rw [hw]; simp) (by have := hx.2; simp at g3 ⊢; omega)
      refine ⟨⟨n, g, (pre ++ q).length, p⟩ :: xs, m, ?_, _, xs, rfl, rfl, rfl, k2, k3, i2⟩
      rw [g4, findLoop_step f' k1]
      exact i1

theorem findAdd (x : FoundEntry) (l : List FoundEntry) (n : Nat) :
    (addFound x l).find? (fun y => y.num == n) = if x.num = n then some x else l.find? (fun y => y.num == n) := by
  unfold addFound
  rw [List.find?_append]
  by_cases h : x.num = n
  · have : (l.filter (fun y => y.num != x.num)).find? (fun y => y.num == n) = none := by
      rw [List.find?_eq_none]
      intro y hy
      simp at hy
      simp
      omega
    rw [this, if_pos h]
    simp [h]
  · rw [if_neg h]
    have h1 : [x].find? (fun y => y.num == n) = none := by simp [h]
    rw [h1, Option.or_none]
    induction l with
    | nil => rfl
    | cons y l ih =>
      by_cases hy : y.num = n
      · have : (y.num != x.num) = true := by simp; omega
        rw [List.filter_cons, if_pos this]
        simp [hy]
      · rw [List.find?_cons]
        have hyn : (y.num == n) = false := by simpa using hy
        rw [hyn, ← ih, List.filter_cons]
        split
        · rw [List.find?_cons, hyn]
        · rfl

theorem find_matches {whole : Bytes} (n : Nat) : ∀ (ps : List FilePart) (xs : List FoundEntry) (es : List FoundEntry), Matches whole xs ps →
    (match lastObject n ps with
     | some (g, v) => ∃ x, (xs.foldl (fun es x => addFound x es) es).find? (fun y => y.num == n) = some x ∧ x.gen = g ∧
         HeldAs whole x.obj v ∧ FoundAt whole x.off n g v
     | none => (xs.foldl (fun es x => addFound x es) es).find? (fun y => y.num == n) = es.find? (fun y => y.num == n)) := by
  intro ps
  induction ps with
  | nil => intro xs es h; simp only [Matches] at h; subst h; simp [lastObject]
  | cons p ps ih =>
    intro xs es h
    cases p with
    | trailer d => exact ih xs es h
    | object m g v =>
      obtain ⟨x, xs', rfl, h1, h2, h3, h4, h5⟩ := h
      have := ih xs' (addFound x es) h5
      rw [lastObject]
      cases hl : lastObject n ps with
      | some gv => rw [hl] at this; exact this
      | none =>
        rw [hl] at this
        simp only [Option.none_or] at this ⊢
        rw [findAdd] at this
        by_cases hm : m = n
        · rw [if_pos hm]
          rw [if_pos (by omega)] at this
          subst hm
          exact ⟨x, this, h2, h3, h4⟩
        · rw [if_neg hm]
          rw [if_neg (by omega)] at this
          exact this

end VPdf
