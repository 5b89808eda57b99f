import Verif.Lemmas.Skip
import Verif.Lemmas.Lex
import Verif.Spec.Grammar
/-
  Each lexeme of the grammar is read as one token.
-/
namespace VPdf
open Spec

theorem readTokenSkip_sep (dict : List Bytes) (sep x : Bytes) (h : Sep sep) :
    readTokenSkip dict (sep ++ x) = readTokenSkip dict x := by
  induction h with
  | nil => rfl
  | ws c s hc _ ih => rw [List.cons_append, readTokenSkip_ws dict c _ hc, ih]
  | comment body c s hb hc _ ih =>
    simp only [List.cons_append, List.append_assoc]
    rw [readTokenSkip_comment dict body _ c hb hc, ih]

theorem sep_ends (sep x : Bytes) (h : Sep sep) (hne : sep ≠ []) : EndsToken (sep ++ x) := by
  cases h with
  | nil => exact absurd rfl hne
  | ws c s hc _ => intro d hd; simp at hd; subst hd; simp [hc]
  | comment body c s hb hc _ => intro d hd; simp at hd; subst hd; decide

/-! ### keywords -/

theorem isRegular_of_ends {rest : Bytes} (h : EndsToken rest) : rest.takeWhile isRegular = [] ∧
    rest.dropWhile isRegular = rest := by
  cases rest with
  | nil => exact ⟨rfl, rfl⟩
  | cons c t => simp [List.takeWhile, List.dropWhile, endsToken_cons h]

theorem takeWhile_append_ends {p : Byte → Bool} {w rest : Bytes} (hw : ∀ c ∈ w, p c = true)
    (h : rest.takeWhile p = [] ∧ rest.dropWhile p = rest) :
    (w ++ rest).takeWhile p = w ∧ (w ++ rest).dropWhile p = rest := by
  induction w with
  | nil => exact h
  | cons c w ih =>
    have := ih (fun d hd => hw d (by simp [hd]))
    simp [hw c (by simp), this]

theorem isNumeric_of_ends {rest : Bytes} (h : EndsToken rest) : rest.takeWhile isNumeric = [] ∧
    rest.dropWhile isNumeric = rest := by
  cases rest with
  | nil => exact ⟨rfl, rfl⟩
  | cons c t =>
    have hc := endsToken_cons h
    have : ∀ c : Byte, isRegular c = false → isNumeric c = false := by apply forall_byte; decide +kernel
    simp [List.takeWhile, List.dropWhile, this c hc]

/-- The first characters that `ReadToken` hands to `ReadUnknown`. -/
theorem readToken_unknown (dict : List Bytes) (c : Byte) (x : Bytes)
    (h : isRegular c = true) :
    readToken dict (c :: x) = .ok (readUnknown dict c x) := by
  have hc : c ≠ 0x0A ∧ c ≠ 0x0D ∧ c ≠ 0x3E ∧ c ≠ 0x3C ∧ c ≠ 0x5B ∧ c ≠ 0x5D ∧ c ≠ 0x2F ∧ c ≠ 0x28 ∧
      (c == 0x20 || c == 0x0C || c == 0x09 || c == 0x00) = false ∧ (c == 0x25) = false := by
    revert c; apply forall_byte; decide +kernel
  obtain ⟨h1, h2, h3, h4, h5, h6, h7, h8, h9, h10⟩ := hc
  have e : skipBlank false (c :: x) = c :: x := by
    rw [skipBlank.eq_def]; simp only [h9, h10]; rfl
  rw [readToken, e]
  split <;> simp_all

theorem readToken_keyword (dict : List Bytes) (c : Byte) (w rest : Bytes) (hc : isRegular c = true)
    (hn : (isNumeric c || c == 0x2B || c == 0x2D || c == 0x2E) = false) (hw : ∀ d ∈ w, isRegular d = true)
    (h : EndsToken rest) :
    readToken dict (c :: w ++ rest) = .ok (⟨dictFind dict (c :: w), c :: w⟩, rest) := by
  rw [List.cons_append, readToken_unknown dict c _ hc]
  obtain ⟨h1, h2⟩ := takeWhile_append_ends hw (isRegular_of_ends h)
  unfold readUnknown
  rw [if_neg (by simp [hn])]
  simp only [h1, h2]

/-! ### numbers -/

theorem isDigit_iff (c : Byte) : IsDigit c ↔ isNumeric c = true := by
  have : ∀ c : Byte, isNumeric c = decide (48 ≤ c.toNat ∧ c.toNat ≤ 57) := by apply forall_byte; decide +kernel
  rw [this]; simp [IsDigit]

theorem digitVal_digit {c : Byte} (h : IsDigit c) : digitVal c = c.toNat - 48 ∧ digitVal c < 10 := by
  have : ∀ c : Byte, isNumeric c = true → digitVal c = c.toNat - 48 ∧ digitVal c < 10 := by
    apply forall_byte; decide +kernel
  exact this c ((isDigit_iff c).mp h)

theorem scanDigits_digits (ds : Bytes) (a : Nat) (h : ∀ c ∈ ds, IsDigit c) :
    scanDigits 10 a ds = ds.foldl (fun a c => a * 10 + (c.toNat - 48)) a := by
  induction ds generalizing a with
  | nil => rfl
  | cons c ds ih =>
    obtain ⟨h1, h2⟩ := digitVal_digit (h c (by simp))
    rw [scanDigits, if_pos h2, h1, ih _ (fun d hd => h d (by simp [hd]))]; rfl

theorem strtolUnsigned_digits (ds : Bytes) (hne : ds ≠ []) (h : ∀ c ∈ ds, IsDigit c) :
    strtolUnsigned 10 ds = .ok (digitsVal ds) := by
  cases ds with
  | nil => exact absurd rfl hne
  | cons c ds =>
    obtain ⟨h1, h2⟩ := digitVal_digit (h c (by simp))
    unfold strtolUnsigned
    simp only [show ¬ (10 : Nat) = 16 by decide, if_false]
    rw [if_pos h2, scanDigits_digits _ _ h]; rfl

theorem digit_facts {c : Byte} (h : IsDigit c) : isCSpace c = false ∧ c ≠ 0x2D ∧ c ≠ 0x2B ∧ c ≠ 0x2E ∧
    isRegular c = true ∧ isNumeric c = true := by
  have : ∀ c : Byte, isNumeric c = true → isCSpace c = false ∧ c ≠ 0x2D ∧ c ≠ 0x2B ∧ c ≠ 0x2E ∧
    isRegular c = true ∧ isNumeric c = true := by apply forall_byte; decide +kernel
  exact this c ((isDigit_iff c).mp h)

theorem strtolInt_text {i : Int} {s : Bytes} (h : IntText i s) : strtolInt 10 s = .ok i := by
  obtain ⟨ds, hne, hd, h⟩ := h
  have hu := strtolUnsigned_digits ds hne hd
  rcases h with ⟨rfl, rfl⟩ | ⟨rfl, rfl⟩ | ⟨rfl, rfl⟩
  · cases s with
    | nil => exact absurd rfl hne
    | cons c s =>
      obtain ⟨h1, h2, h3, -⟩ := digit_facts (hd c (by simp))
      rw [strtolInt.eq_def]
      simp only [List.dropWhile, h1]
      split
      · rename_i h; simp at h; exact absurd h.1 h2
      · rename_i h; simp at h; exact absurd h.1 h3
      · rw [hu]; rfl
  · have : List.dropWhile isCSpace (43 :: ds) = 43 :: ds := by simp [List.dropWhile, show isCSpace 43 = false by decide]
    rw [strtolInt.eq_def, this]; simp only []; rw [hu]; rfl
  · have : List.dropWhile isCSpace (45 :: ds) = 45 :: ds := by simp [List.dropWhile, show isCSpace 45 = false by decide]
    rw [strtolInt.eq_def, this]; simp only []; rw [hu]; rfl

theorem stoll_text {i : Int} {s : Bytes} (h : IntText i s) (h1 : -9223372036854775808 ≤ i)
    (h2 : i ≤ 9223372036854775807) : stoll s = .ok i := by
  unfold stoll; rw [strtolInt_text h]
  show (if _ then _ else _) = _
  rw [if_pos ⟨h1, h2⟩]; rfl

/-- First character and digits of a number. -/
theorem intText_cons {i : Int} {s : Bytes} (h : IntText i s) :
    ∃ c ds, s = c :: ds ∧ isRegular c = true ∧ (isNumeric c || c == 0x2B || c == 0x2D || c == 0x2E) = true ∧
      c ≠ 0x2E ∧ (∀ d ∈ ds, isNumeric d = true) := by
  obtain ⟨ds, hne, hd, h⟩ := h
  have hn : ∀ d ∈ ds, isNumeric d = true := fun d hd' => (isDigit_iff d).mp (hd d hd')
  rcases h with ⟨rfl, -⟩ | ⟨rfl, -⟩ | ⟨rfl, -⟩
  · cases s with
    | nil => exact absurd rfl hne
    | cons c s =>
      obtain ⟨h1, h2, h3, h4, h5, h6⟩ := digit_facts (hd c (by simp))
      exact ⟨c, s, rfl, h5, by simp [h6], h4, fun d hd' => hn d (by simp [hd'])⟩
  · exact ⟨43, ds, rfl, by decide, by decide, by decide, hn⟩
  · exact ⟨45, ds, rfl, by decide, by decide, by decide, hn⟩

theorem not_dot_of_ends {rest : Bytes} (h : EndsToken rest) : ∀ y, rest ≠ 0x2E :: y := by
  intro y hy; subst hy
  have := endsToken_cons h
  revert this; decide

theorem readToken_int (dict : List Bytes) {i : Int} {s : Bytes} (h : IntText i s) (rest : Bytes)
    (hr : EndsToken rest) : readToken dict (s ++ rest) = .ok (⟨.integer, s⟩, rest) := by
  obtain ⟨c, ds, rfl, h1, h2, h3, h4⟩ := intText_cons h
  obtain ⟨e1, e2⟩ := takeWhile_append_ends h4 (isNumeric_of_ends hr)
  rw [List.cons_append, readToken_unknown dict c _ h1]
  unfold readUnknown
  rw [if_pos h2]
  simp only [e1, e2]
  rw [if_neg (by simpa using h3)]
  split
  · exact absurd rfl (not_dot_of_ends hr _)
  · rfl

theorem scanReal_frac (fp : Bytes) (seen : Bool) (m q : Nat) (h : ∀ c ∈ fp, IsDigit c)
    (hs : seen = true ∨ fp ≠ []) :
    scanReal seen m (some q) fp = .ok (fp.foldl (fun a c => a * 10 + (c.toNat - 48)) m, q + fp.length) := by
  induction fp generalizing seen m q with
  | nil => rcases hs with rfl | h; · rfl
           · exact absurd rfl h
  | cons c fp ih =>
    obtain ⟨h1, h2, h3, h4, h5, h6⟩ := digit_facts (h c (by simp))
    have e : (c == 0x2E) = false := by simpa using h4
    rw [scanReal.eq_def]; simp only [e]
    show scanReal true (m * 10 + digitVal c) (some (q + 1)) fp = _
    rw [ih _ _ _ (fun d hd => h d (by simp [hd])) (Or.inl rfl), (digitVal_digit (h c (by simp))).1]
    simp; omega

theorem scanReal_text (ip fp : Bytes) (seen : Bool) (m : Nat) (h : ∀ c ∈ ip ++ fp, IsDigit c)
    (hs : seen = true ∨ ip ++ fp ≠ []) :
    scanReal seen m none (ip ++ 0x2E :: fp) =
      .ok ((ip ++ fp).foldl (fun a c => a * 10 + (c.toNat - 48)) m, fp.length) := by
  induction ip generalizing seen m with
  | nil =>
    rw [List.nil_append, scanReal.eq_def]; simp only
    show scanReal seen m (some 0) fp = _
    rw [scanReal_frac fp seen m 0 (by simpa using h) (by simpa using hs)]; simp
  | cons c ip ih =>
    have hc := h c (by simp)
    obtain ⟨h1, h2, h3, h4, h5, h6⟩ := digit_facts hc
    have e : (c == 0x2E) = false := by simpa using h4
    rw [List.cons_append, scanReal.eq_def]; simp only [e]
    show scanReal true (m * 10 + digitVal c) none (ip ++ 0x2E :: fp) = _
    rw [ih true _ (fun d hd => h d (by simp at hd ⊢; exact Or.inr hd)) (Or.inl rfl), (digitVal_digit hc).1]; rfl

theorem parseReal_text {m : Int} {p : Nat} {s : Bytes} (h : RealText m p s) : parseReal s = .ok (.real m p) := by
  obtain ⟨ip, fp, hne, hd, rfl, h⟩ := h
  have hs := scanReal_text ip fp false 0 hd (Or.inr hne)
  rcases h with ⟨rfl, rfl⟩ | ⟨rfl, rfl⟩ | ⟨rfl, rfl⟩
  · unfold parseReal
    split
    · rename_i heq
      cases ip with
      | nil => simp at heq
      | cons c ip =>
        simp at heq
        exact absurd heq.1 (digit_facts (hd c (by simp))).2.1
    · rename_i heq
      cases ip with
      | nil => simp at heq
      | cons c ip =>
        simp at heq
        exact absurd heq.1 (digit_facts (hd c (by simp))).2.2.1
    · rw [hs]; rfl
  · show (do let (m, p) ← scanReal false 0 none (ip ++ 0x2E :: fp); pure (Obj.real m p)) = _
    rw [hs]; rfl
  · show (do let (m, p) ← scanReal false 0 none (ip ++ 0x2E :: fp); pure (Obj.real (-(m : Int)) p)) = _
    rw [hs]; rfl

theorem readToken_real (dict : List Bytes) {m : Int} {p : Nat} {s : Bytes} (h : RealText m p s) (rest : Bytes)
    (hr : EndsToken rest) : readToken dict (s ++ rest) = .ok (⟨.real, s⟩, rest) := by
  obtain ⟨ip, fp, hne, hd, rfl, h⟩ := h
  have hip : ∀ c ∈ ip, isNumeric c = true := fun c hc => (isDigit_iff c).mp (hd c (by simp [hc]))
  have hfp : ∀ c ∈ fp, isNumeric c = true := fun c hc => (isDigit_iff c).mp (hd c (by simp [hc]))
  obtain ⟨f1, f2⟩ := takeWhile_append_ends hfp (isNumeric_of_ends hr)
  have hdot : (0x2E :: (fp ++ rest)).takeWhile isNumeric = [] ∧
      (0x2E :: (fp ++ rest)).dropWhile isNumeric = 0x2E :: (fp ++ rest) := by
    simp [List.takeWhile, List.dropWhile, show isNumeric 0x2E = false by decide]
  -- a sign or digit, more digits, the point, digits
  have key : ∀ c ds, isRegular c = true → (isNumeric c || c == 0x2B || c == 0x2D || c == 0x2E) = true → c ≠ 0x2E →
      (∀ d ∈ ds, isNumeric d = true) →
      readToken dict (c :: (ds ++ 0x2E :: (fp ++ rest))) = .ok (⟨.real, c :: (ds ++ 0x2E :: fp)⟩, rest) := by
    intro c ds h1 h2 h3 h4
    obtain ⟨e1, e2⟩ := takeWhile_append_ends h4 hdot
    rw [readToken_unknown dict c _ h1]
    unfold readUnknown
    rw [if_pos h2]
    simp only [e1, e2]
    rw [if_neg (by simpa using h3)]
    simp only [f1, f2, List.cons_append]
  rcases h with ⟨rfl, -⟩ | ⟨rfl, -⟩ | ⟨rfl, -⟩
  · cases ip with
    | nil =>
      rw [List.nil_append, List.cons_append, readToken_unknown dict 0x2E _ (by decide)]
      unfold readUnknown
      rw [if_pos (by decide)]
      simp only [f1, f2]; rfl
    | cons c ip =>
      obtain ⟨h1, h2, h3, h4, h5, h6⟩ := digit_facts (hd c (by simp))
      have := key c ip h5 (by simp [h6]) h4 (fun d hd' => hip d (by simp [hd']))
      simpa using this
  · have := key 43 ip (by decide) (by decide) (by decide) hip
    simpa using this
  · have := key 45 ip (by decide) (by decide) (by decide) hip
    simpa using this

/-! ### names and strings -/

theorem readName_body {n s : Bytes} (h : NameBody n s) (rest : Bytes) (hr : EndsToken rest) :
    readName (s ++ rest) = .ok (n, rest) := by
  induction h with
  | nil => exact readName_ends hr
  | regular c n s hc hne _ ih =>
    have h1 : isRegular c = true := by
      cases hb : isRegular c with
      | true => rfl
      | false => exact absurd ((isRegular_iff c).mp hb) hc
    rw [List.cons_append, readName_regular h1 (by simpa using hne), ih]; rfl
  | code x y a b n s hx hy _ ih =>
    simp only [List.cons_append]
    rw [readName_hash (parseByte_hexpair hx hy), ih]; rfl

theorem readToken_name (dict : List Bytes) {n s : Bytes} (h : NameBody n s) (rest : Bytes) (hr : EndsToken rest) :
    readToken dict (0x2F :: (s ++ rest)) = .ok (⟨.name, n⟩, rest) := by
  show (do let (v, r) ← readName (s ++ rest); pure ((⟨.name, v⟩ : Token), r)) = _
  rw [readName_body h rest hr]; rfl

theorem octVal_facts {c : Byte} {a : Nat} (h : octVal c = some a) : isNumeric c = true ∧ digitVal c = a ∧ a < 8 ∧
    isCSpace c = false ∧ c ≠ 0x2D ∧ c ≠ 0x2B := by
  have h' : ∀ c : Byte, ∀ a ∈ octVal c, isNumeric c = true ∧ digitVal c = a ∧ a < 8 ∧
      isCSpace c = false ∧ c ≠ 0x2D ∧ c ≠ 0x2B := by apply forall_byte; decide +kernel
  exact h' c a h

theorem parseByte_octal {x : Byte} {a : Nat} (t : Bytes) (v : Nat) (hx : octVal x = some a)
    (hv : scanDigits 8 a t = v) (hle : v ≤ 255) : parseByte 8 (x :: t) = .ok (UInt8.ofNat v) := by
  obtain ⟨x1, x2, x3, x4, x5, x6⟩ := octVal_facts hx
  have e1 : strtolUnsigned 8 (x :: t) = .ok v := by
    unfold strtolUnsigned
    simp only [show ¬ (8 : Nat) = 16 by decide, if_false]
    rw [if_pos (by omega), scanDigits, if_pos (by omega)]
    simp [x2, hv]
  have e2 : strtolInt 8 (x :: t) = .ok (v : Int) := by
    rw [strtolInt.eq_def]
    simp only [List.dropWhile, x4]
    split
    · rename_i h; simp at h; exact absurd h.1 x5
    · rename_i h; simp at h; exact absurd h.1 x6
    · rw [e1]; rfl
  unfold parseByte stoi
  rw [e2]
  show (if _ then _ else _ : Res Int).bind toUChar = _
  rw [if_pos (by omega)]
  show toUChar _ = _
  unfold toUChar
  rw [if_pos (by omega)]; rfl

theorem octal_not_special {x : Byte} (hx : isNumeric x = true) : (x == 0x72) = false ∧ (x == 0x66) = false ∧
    (x == 0x74) = false ∧ (x == 0x6E) = false ∧ (x == 0x62) = false ∧ (x == 0x28) = false ∧ (x == 0x29) = false ∧
    (x == 0x5C) = false ∧ (x == 0x0D) = false ∧ (x == 0x0A) = false := by
  revert x; apply forall_byte; decide +kernel

theorem head_not_digit {c : Byte} {s : Bytes} (h : ∀ d ∈ (c :: s).head?, ¬ IsDigit d) : isNumeric c = false := by
  have := h c (by simp)
  rw [isDigit_iff] at this
  simpa using this

theorem decodeLiteral_body {d : Nat} {v s : Bytes} (h : LitBody d v s) : decodeLiteral d s = .ok v := by
  induction h with
  | nil => rfl
  | plain d c v s hc _ ih =>
    simp at hc
    rw [decodeLiteral_plain (by simp [hc]) (by simp [hc]) (by simp [hc]) (by simp [hc]), ih]; rfl
  | opening d v s _ ih => rw [decodeLiteral.eq_def]; simp [ih]; rfl
  | closing d v s _ ih => rw [decodeLiteral.eq_def]; simp [ih]; rfl
  | escape d x c v s hx _ ih =>
    simp [escapes] at hx
    rcases hx with ⟨rfl, rfl⟩ | ⟨rfl, rfl⟩ | ⟨rfl, rfl⟩ | ⟨rfl, rfl⟩ | ⟨rfl, rfl⟩ | ⟨rfl, rfl⟩ | ⟨rfl, rfl⟩ | ⟨rfl, rfl⟩ <;>
      (rw [decodeLiteral.eq_def]; simp [ih]; rfl)
  | continued d v s _ ih => rw [decodeLiteral.eq_def]; simp [ih]
  | continuedCrLf d v s _ ih => rw [decodeLiteral.eq_def]; simp [ih]
  | continuedCr d v s hs _ ih =>
    rw [decodeLiteral.eq_def]; simp
    split
    · rename_i heq; simp at hs
    · exact ih
  | octal3 d x y z a b c v s hx hy hz hle _ ih =>
    have hv : parseByte 8 [x, y, z] = .ok (UInt8.ofNat (64 * a + 8 * b + c)) := by
      refine parseByte_octal [y, z] _ hx ?_ hle
      obtain ⟨-, y2, y3, -⟩ := octVal_facts hy
      obtain ⟨-, z2, z3, -⟩ := octVal_facts hz
      simp [scanDigits, y2, y3, z2, z3]; omega
    rw [decodeLiteral_octal (octVal_facts hx).1 (octVal_facts hy).1 (octVal_facts hz).1 hv, ih]; rfl
  | octal2 d x y a b v s hx hy hs _ ih =>
    have hv : parseByte 8 [x, y] = .ok (UInt8.ofNat (8 * a + b)) := by
      obtain ⟨-, x2, x3, -⟩ := octVal_facts hx
      obtain ⟨-, y2, y3, -⟩ := octVal_facts hy
      refine parseByte_octal [y] _ hx ?_ (by omega)
      simp [scanDigits, y2, y3]; omega
    have nx := (octVal_facts hx).1
    have ny := (octVal_facts hy).1
    generalize UInt8.ofNat (8 * a + b) = w at hv ⊢
    obtain ⟨n1, n2, n3, n4, n5, n6, n7, n8, n9, n10⟩ := octal_not_special nx
    cases s with
    | nil =>
      rw [decodeLiteral.eq_def]; simp [n1, n2, n3, n4, n5, n6, n7, n8, n9, n10, nx, ny]
      rw [hv, ih]; rfl
    | cons z s =>
      have nz := head_not_digit hs
      rw [decodeLiteral.eq_def]; simp [n1, n2, n3, n4, n5, n6, n7, n8, n9, n10, nx, ny, nz]
      rw [hv, ih]; rfl
  | octal1 d x a v s hx hs _ ih =>
    have hv : parseByte 8 [x] = .ok (UInt8.ofNat a) := by
      obtain ⟨-, x2, x3, -⟩ := octVal_facts hx
      exact parseByte_octal [] _ hx rfl (by omega)
    have nx := (octVal_facts hx).1
    obtain ⟨n1, n2, n3, n4, n5, n6, n7, n8, n9, n10⟩ := octal_not_special nx
    cases s with
    | nil =>
      rw [decodeLiteral.eq_def]; simp [n1, n2, n3, n4, n5, n6, n7, n8, n9, n10, nx]
      rw [hv, ih]; rfl
    | cons z s =>
      have nz := head_not_digit hs
      rw [decodeLiteral.eq_def]; simp [n1, n2, n3, n4, n5, n6, n7, n8, n9, n10, nx, nz]
      rw [hv, ih]; rfl
  | ignored d x v s hx h1 h2 h3 _ ih =>
    have hn : isNumeric x = false := by
      cases hb : isNumeric x with
      | false => rfl
      | true => exact absurd ((isDigit_iff x).mpr hb) h3
    have e : x ≠ 110 ∧ x ≠ 114 ∧ x ≠ 116 ∧ x ≠ 98 ∧ x ≠ 102 ∧ x ≠ 40 ∧ x ≠ 41 ∧ x ≠ 92 := by
      refine ⟨?_, ?_, ?_, ?_, ?_, ?_, ?_, ?_⟩ <;> (rintro rfl; simp [escapes] at hx)
    obtain ⟨e1, e2, e3, e4, e5, e6, e7, e8⟩ := e
    have step : decodeLiteral d (92 :: x :: s) = decodeLiteral d (x :: s) := by
      rw [decodeLiteral.eq_def]; simp [e1, e2, e3, e4, e5, e6, e7, e8, h1, h2, hn]
    rw [step, decodeLiteral_plain (by simpa using e7) (by simpa using e6) (by simpa using h1) (by simpa using e8), ih]
    rfl

theorem readLiteral_false_other {n : Nat} {c : Byte} {t : Bytes} (h1 : (c == 0x29) = false) (h4 : (c == 0x5C) = false) :
    readLiteral false n (c :: t) =
      (do let (s, r) ← readLiteral false (if c == 0x28 then n + 1 else n) t; pure (c :: s, r)) := by
  rw [readLiteral.eq_def]; simp only [h1, h4]; rfl

theorem readLiteral_body {d : Nat} {v s : Bytes} (h : LitBody d v s) (rest : Bytes) :
    readLiteral false (d + 1) (s ++ 0x29 :: rest) = .ok (s, rest) := by
  have num : ∀ {x : Byte} {n : Nat} {t : Bytes}, isNumeric x = true → readLiteral false n (x :: t) =
      (do let (s, r) ← readLiteral false n t; pure (x :: s, r)) := by
    intro x n t hx
    obtain ⟨a1, a2, a3⟩ := numeric_plain hx
    exact readLiteral_plain a1 a2 a3
  induction h with
  | nil => rw [List.nil_append, readLiteral.eq_def]; rfl
  | plain d c v s hc _ ih =>
    simp at hc
    rw [List.cons_append, readLiteral_plain (by simp [hc]) (by simp [hc]) (by simp [hc]), ih]; rfl
  | opening d v s _ ih =>
    rw [List.cons_append, readLiteral_false_other (by decide) (by decide)]
    show (do let (s, r) ← readLiteral false (d + 1 + 1) (s ++ 0x29 :: rest); pure (40 :: s, r)) = _
    rw [ih]; rfl
  | closing d v s _ ih =>
    rw [List.cons_append, readLiteral.eq_def]
    have : ((41 : UInt8) == 0x29 && d + 1 + 1 == 1) = false := by simp
    simp only [this]
    show (do let (s, r) ← readLiteral false (d + 1 + 1 - 1) (s ++ 0x29 :: rest); pure (41 :: s, r)) = _
    rw [show d + 1 + 1 - 1 = d + 1 by omega, ih]; rfl
  | escape d x c v s hx _ ih => simp only [List.cons_append]; rw [readLiteral_escape, ih]; rfl
  | continued d v s _ ih => simp only [List.cons_append]; rw [readLiteral_escape, ih]; rfl
  | continuedCrLf d v s _ ih =>
    simp only [List.cons_append]
    rw [readLiteral_escape, readLiteral_plain (by decide) (by decide) (by decide), ih]; rfl
  | continuedCr d v s hs _ ih => simp only [List.cons_append]; rw [readLiteral_escape, ih]; rfl
  | octal3 d x y z a b c v s hx hy hz hle _ ih =>
    simp only [List.cons_append]
    rw [readLiteral_escape, num (octVal_facts hy).1, num (octVal_facts hz).1, ih]; rfl
  | octal2 d x y a b v s hx hy hs _ ih =>
    simp only [List.cons_append]
    rw [readLiteral_escape, num (octVal_facts hy).1, ih]; rfl
  | octal1 d x a v s hx hs _ ih => simp only [List.cons_append]; rw [readLiteral_escape, ih]; rfl
  | ignored d x v s hx h1 h2 h3 _ ih => simp only [List.cons_append]; rw [readLiteral_escape, ih]; rfl

theorem readToken_lit (dict : List Bytes) {v s : Bytes} (h : LitBody 0 v s) (rest : Bytes) :
    readToken dict (0x28 :: (s ++ 0x29 :: rest)) = .ok (⟨.literalString, s⟩, rest) := by
  show (do let (v, r) ← readLiteral false 1 (s ++ 0x29 :: rest); pure ((⟨.literalString, v⟩ : Token), r)) = _
  rw [readLiteral_body h rest]; rfl

theorem readToken_hex (dict : List Bytes) (s rest v : Bytes) (hs : Spec.hexBytes (Spec.hexDigitsOf s) = some v) :
    readToken dict (0x3C :: (s ++ 0x3E :: rest)) = .ok (⟨.hexString, Spec.hexDigitsOf s⟩, rest) := by
  -- every character is white-space or a hexadecimal digit
  have hall : ∀ (n : Nat) (s : Bytes), s.length ≤ n → ∀ v, Spec.hexBytes s = some v →
      ∀ c ∈ s, ∃ a, Spec.hexVal c = some a := by
    intro n
    induction n with
    | zero => intro s hn v _ c hc; cases s <;> simp_all
    | succ n ih =>
      intro s hn v hv c hc
      match s, hv with
      | [], _ => cases hc
      | [x], hv =>
        simp [Spec.hexBytes, Option.bind_eq_some_iff] at hv
        obtain ⟨a, ha, -⟩ := hv
        simp at hc; subst hc; exact ⟨a, ha⟩
      | x :: y :: t, hv =>
        simp [Spec.hexBytes, Option.bind_eq_some_iff] at hv
        obtain ⟨a, ha, b, hb, r, hr, -⟩ := hv
        simp at hc
        rcases hc with rfl | rfl | hc
        · exact ⟨a, ha⟩
        · exact ⟨b, hb⟩
        · exact ih t (by simp at hn; omega) r hr c hc
  have hd := hall _ _ (Nat.le_refl _) v hs
  have hws : ∀ c : Byte, isWhiteSpace c = decide (c ∈ Spec.whiteSpace) := by
    apply forall_byte; decide +kernel
  have key : ∀ s : Bytes, (∀ c ∈ Spec.hexDigitsOf s, ∃ a, Spec.hexVal c = some a) →
      readHexString (s ++ 0x3E :: rest) = .ok (Spec.hexDigitsOf s, rest) := by
    intro s
    induction s with
    | nil => intro _; rw [List.nil_append, readHexString.eq_def]; rfl
    | cons c s ih =>
      intro hs
      by_cases hc : c ∈ Spec.whiteSpace
      · have e : Spec.hexDigitsOf (c :: s) = Spec.hexDigitsOf s := by simp [Spec.hexDigitsOf, hc]
        have h1 : isWhiteSpace c = true := by rw [hws]; simpa using hc
        have h2 : (c == 0x3E) = false := by
          clear ih hs hws e; revert c; apply forall_byte; decide +kernel
        rw [e] at hs ⊢
        rw [List.cons_append, readHexString.eq_def]; simp only [h1, h2]
        exact ih hs
      · have e : Spec.hexDigitsOf (c :: s) = c :: Spec.hexDigitsOf s := by simp [Spec.hexDigitsOf, hc]
        rw [e] at hs ⊢
        obtain ⟨a, ha⟩ := hs c (by simp)
        obtain ⟨-, -, -, -, -, h1, h2, h3⟩ := hexVal_facts c a ha
        rw [List.cons_append, readHexString_digit h1 h2 h3, ih (fun d hd => hs d (by simp [hd]))]; rfl
  have hk := key s hd
  -- the first character is not `<`, so `<` is the start of a string and not of a dictionary
  cases s with
  | nil => rfl
  | cons d t =>
    have hne : d ≠ 0x3C ∧ d ≠ 0x3E := by
      by_cases hc : d ∈ Spec.whiteSpace
      · clear hd hs hk; revert d; apply forall_byte; decide +kernel
      · obtain ⟨a, ha⟩ := hd d (by simp [Spec.hexDigitsOf, hc])
        have : ∀ d : Byte, ∀ a ∈ Spec.hexVal d, d ≠ 0x3C ∧ d ≠ 0x3E := by apply forall_byte; decide +kernel
        exact this d a ha
    have e : ∀ t, readToken dict (0x3C :: d :: t) =
        (do let (v, r) ← readHexString (d :: t); pure (⟨.hexString, v⟩, r)) := by
      intro t
      have : skipBlank false (0x3C :: d :: t) = 0x3C :: d :: t := rfl
      rw [readToken, this]
      split <;> simp_all
    simp only [List.cons_append] at hk ⊢
    rw [e, hk]; rfl


end VPdf
