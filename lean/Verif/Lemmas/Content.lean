import Verif.Spec.Content
import Verif.Lemmas.ParseMain
import Verif.Lemmas.Write
/-
  Every text of the grammar of content streams is read as the instructions it denotes.
-/
namespace VPdf
open Spec

/-- What is proved of an operand and its text. -/
def OperandParses (o : Obj) (t : Bytes) : Prop :=
  ∀ rest, Boundary t rest → ∀ f, 2 * t.length ≤ f → readContent f (t ++ rest) = .ok (o, rest)

theorem readContent_sep (f : Nat) {sep : Bytes} (x : Bytes) (h : Sep sep) :
    readContent f (sep ++ x) = readContent f x := by
  cases f with
  | zero => rfl
  | succ f => rw [readContent, readContent, readTokenSkip_sep _ _ _ h]

theorem operandParses_leaf (o : Obj) (t : Bytes) (tok : Token) (hne : t ≠ [])
    (h : ∀ rest, Boundary t rest → readToken contentKeywords (t ++ rest) = .ok (tok, rest)) (hty : tok.type ≠ .eol)
    (ho : ∀ f rest, readTokenSkip contentKeywords (t ++ rest) = .ok (tok, rest) →
      readContent (f + 1) (t ++ rest) = .ok (o, rest)) : OperandParses o t := by
  intro rest hb f hf
  have hlt : 0 < t.length := List.length_pos_iff.mpr hne
  obtain ⟨f, rfl⟩ : ∃ g, f = g + 1 := ⟨f - 1, by omega⟩
  exact ho f rest (readTokenSkip_of_token (h rest hb) hty)

theorem contentWord (c : Byte) (w : Bytes) (o : Obj) (hc : isRegular c = true)
    (hn : (isNumeric c || c == 0x2B || c == 0x2D || c == 0x2E) = false) (hw : ∀ d ∈ w, isRegular d = true)
    (hk : dictFind contentKeywords (c :: w) = .keyword (c :: w))
    (ho : ∀ f rest, readTokenSkip contentKeywords (c :: w ++ rest) = .ok (⟨.keyword (c :: w), c :: w⟩, rest) →
      readContent (f + 1) (c :: w ++ rest) = .ok (o, rest)) : OperandParses o (c :: w) := by
  refine operandParses_leaf _ _ ⟨.keyword (c :: w), c :: w⟩ (by simp) ?_ (by simp) ho
  intro rest hb
  have hends : EndsToken rest := by
    refine ends_of_boundary (last_regular_of_all ?_) hb
    intro d hd
    rcases List.mem_cons.mp hd with rfl | hd
    · exact hc
    · exact hw d hd
  rw [readToken_keyword contentKeywords c w rest hc hn hw hends, hk]

theorem operandParses_name (n s : Bytes) (h : NameBody n s) : OperandParses (.name n) (47 :: s) := by
  refine operandParses_leaf _ _ ⟨.name, n⟩ (by simp) ?_ (by simp) ?_
  · intro rest hb; exact readToken_name contentKeywords h rest (name_ends h hb)
  · intro f rest hs; rw [readContent, hs, ok_bind]; rfl

theorem operandParses_simple (o : Obj) (t : Bytes) (hs : Simple o) (h : Denotes o t) : OperandParses o t := by
  cases h with
  | null =>
    refine contentWord _ _ .null (by decide) (by decide) (by decide) (by decide) ?_
    intro f rest hs; rw [readContent, hs, ok_bind]; rfl
  | btrue =>
    refine contentWord _ _ (.bool true) (by decide) (by decide) (by decide) (by decide) ?_
    intro f rest hs; rw [readContent, hs, ok_bind]; rfl
  | bfalse =>
    refine contentWord _ _ (.bool false) (by decide) (by decide) (by decide) (by decide) ?_
    intro f rest hs; rw [readContent, hs, ok_bind]; rfl
  | int i s h h1 h2 =>
    refine operandParses_leaf _ _ ⟨.integer, t⟩ (denotes_ne (.int i t h h1 h2)) ?_ (by simp) ?_
    · intro rest hb
      exact readToken_int contentKeywords h rest (ends_of_boundary (last_regular_of_all (intText_regular h)) hb)
    · intro f rest hs; rw [readContent, hs, ok_bind]
      show (stoll t >>= _) = _
      rw [stoll_text h h1 h2]; rfl
  | real m p s h =>
    refine operandParses_leaf _ _ ⟨.real, t⟩ (denotes_ne (.real m p t h)) ?_ (by simp) ?_
    · intro rest hb
      exact readToken_real contentKeywords h rest (ends_of_boundary (last_regular_of_all (realText_regular h)) hb)
    · intro f rest hs; rw [readContent, hs, ok_bind]
      show (parseReal t >>= _) = _
      rw [parseReal_text h]; rfl
  | name n s h => exact operandParses_name n s h
  | lit v s h =>
    refine operandParses_leaf _ _ ⟨.literalString, s⟩ (by simp) ?_ (by simp) ?_
    · intro rest _
      have := readToken_lit contentKeywords h rest
      simpa using this
    · intro f rest hs; rw [readContent, hs, ok_bind]
      show (decodeLiteral 0 s >>= _) = _
      rw [decodeLiteral_body h]; rfl
  | hex v s h =>
    refine operandParses_leaf _ _ ⟨.hexString, hexDigitsOf s⟩ (by simp) ?_ (by simp) ?_
    · intro rest _
      have := readToken_hex contentKeywords s rest v h
      simpa using this
    · intro f rest hs; rw [readContent, hs, ok_bind]
      show (decodeHexPairs (hexDigitsOf s) >>= _) = _
      rw [decodeHexPairs_spec _ _ h]; rfl
  | ref => exact hs.elim
  | arr => exact hs.elim
  | dict => exact hs.elim

/-- What is proved of the items of an array. -/
def OperandItemsParse (l : List Obj) (s : Bytes) : Prop :=
  ∀ rest acc f, 2 * s.length + 1 ≤ f → readContentArr f (s ++ 93 :: rest) acc = .ok (.arr (acc ++ l), rest)

/-- What is proved of the entries of a dictionary. -/
def OperandEntriesParse (es : List (Bytes × Obj)) (s : Bytes) : Prop :=
  ∀ rest acc f, 2 * s.length + 1 ≤ f → readContentDict f (s ++ 62 :: 62 :: rest) acc = .ok (buildDict acc es, rest)

theorem readContent_first {f : Nat} {x : Bytes} {p : Obj × Bytes} (h : readContent f x = .ok p) :
    ∃ t r, readTokenSkip contentKeywords x = .ok (t, r) ∧ isOperand t.type = true := by
  cases f with
  | zero => cases h
  | succ f =>
    rw [readContent] at h
    cases hq : readTokenSkip contentKeywords x with
    | error er => rw [hq] at h; cases h
    | ok q =>
      obtain ⟨t, r⟩ := q
      rw [hq, ok_bind] at h
      refine ⟨t, r, rfl, ?_⟩
      obtain ⟨ty, v⟩ := t
      cases ty <;> first | rfl | (cases h; done) | skip
      rename_i w
      dsimp only at h
      by_cases h1 : w == b! "true"
      · simp [isOperand, h1]
      · rw [if_neg h1] at h
        by_cases h2 : w == b! "false"
        · simp [isOperand, h2]
        · rw [if_neg h2] at h
          by_cases h3 : w == b! "null"
          · simp [isOperand, h3]
          · rw [if_neg h3] at h; cases h

theorem readContentArr_item {f : Nat} {sep x r : Bytes} {o : Obj} (acc : List Obj) (hs : Sep sep)
    (h : readContent f x = .ok (o, r)) :
    readContentArr (f + 1) (sep ++ x) acc = readContentArr f r (acc ++ [o]) := by
  obtain ⟨t, r', h1, h2⟩ := readContent_first h
  rw [readContentArr, readTokenSkip_sep _ _ _ hs, h1, ok_bind]
  have h3 : (t.type == TokType.arrayEnd) = false := by
    cases hty : t.type <;> first | rfl | (rw [hty] at h2; cases h2)
  simp only [h3]
  show (readContent f (sep ++ x) >>= _) = _
  rw [readContent_sep f x hs, h, ok_bind]

theorem readContentDict_entry {f : Nat} {sep x y r : Bytes} {k : Bytes} {o : Obj} (acc : Dict) (hs : Sep sep)
    (h1 : readContent f x = .ok (.name k, y)) (h2 : readContent f y = .ok (o, r)) :
    readContentDict (f + 1) (sep ++ x) acc = readContentDict f r
      (if isNull o then acc else match mapFind k acc with | some _ => acc | none => mapInsert k o acc) := by
  obtain ⟨t, r', g1, g2⟩ := readContent_first h1
  rw [readContentDict, readTokenSkip_sep _ _ _ hs, g1, ok_bind]
  have h3 : (t.type == TokType.dictEnd) = false := by
    cases hty : t.type <;> first | rfl | (rw [hty] at g2; cases g2)
  simp only [h3]
  show (readContent f (sep ++ x) >>= _) = _
  rw [readContent_sep f x hs, h1, ok_bind]
  show (readContent f y >>= _) = _
  rw [h2, ok_bind]
  cases o <;> first | rfl | (cases hm : mapFind k acc <;> simp [isNull, hm])

theorem operandParses_arr (l : List Obj) (s : Bytes) (h : OperandItemsParse l s) :
    OperandParses (.arr l) (91 :: (s ++ [93])) := by
  intro rest _ f hf
  have hs : readTokenSkip contentKeywords (91 :: (s ++ 93 :: rest)) = .ok (⟨.arrayBegin, []⟩, s ++ 93 :: rest) :=
    readTokenSkip_of_token rfl (by decide)
  have assoc : 91 :: (s ++ [93]) ++ rest = 91 :: (s ++ 93 :: rest) := by simp
  rw [assoc]
  simp only [List.length_cons, List.length_append, List.length_nil] at hf
  obtain ⟨f, rfl⟩ : ∃ g, f = g + 1 := ⟨f - 1, by omega⟩
  rw [readContent, hs, ok_bind]
  show readContentArr f (s ++ 93 :: rest) [] = _
  have := h rest [] f (by omega)
  simpa using this

theorem operandParses_dict (es d : List (Bytes × Obj)) (s : Bytes) (h : OperandEntriesParse es s)
    (hsort : SortedKeys d) (hval : ∀ k, valueAt k d = firstValue k es) :
    OperandParses (.dict d) (60 :: 60 :: (s ++ [62, 62])) := by
  intro rest _ f hf
  have hs : readTokenSkip contentKeywords (60 :: 60 :: (s ++ 62 :: 62 :: rest)) =
      .ok (⟨.dictBegin, []⟩, s ++ 62 :: 62 :: rest) := readTokenSkip_of_token rfl (by decide)
  have assoc : 60 :: 60 :: (s ++ [62, 62]) ++ rest = 60 :: 60 :: (s ++ 62 :: 62 :: rest) := by simp
  rw [assoc]
  simp only [List.length_cons, List.length_append, List.length_nil] at hf
  obtain ⟨f, rfl⟩ : ∃ g, f = g + 1 := ⟨f - 1, by omega⟩
  rw [readContent, hs, ok_bind]
  show (readContentDict f (s ++ 62 :: 62 :: rest) [] >>= _) = _
  rw [h rest [] f (by omega), ok_bind]
  have hd : buildDict [] es = d := by
    obtain ⟨b1, b2⟩ := buildDict_spec es [] List.Pairwise.nil
    apply sorted_ext b1 hsort
    intro k; rw [b2 k, ← valueAt_eq k d, hval k]; rfl
  rw [hd]; rfl

theorem operandItemsParse_nil (sep : Bytes) (hs : Sep sep) : OperandItemsParse [] sep := by
  intro rest acc f hf
  obtain ⟨f, rfl⟩ : ∃ g, f = g + 1 := ⟨f - 1, by omega⟩
  have ht : readTokenSkip contentKeywords (93 :: rest) = .ok (⟨.arrayEnd, []⟩, rest) :=
    readTokenSkip_of_token rfl (by decide)
  rw [readContentArr, readTokenSkip_sep _ _ _ hs, ht, ok_bind]
  simp; rfl

theorem operand_ne {o : Obj} {t : Bytes} (h : Operand o t) : t ≠ [] := by
  cases h with
  | simple _ _ _ h => exact denotes_ne h
  | arr => simp
  | dict => simp

theorem operandItemsParse_cons (o : Obj) (os : List Obj) (sep t s : Bytes) (hs : Sep sep) (hd : Operand o t)
    (hb : Boundary t s) (hp : OperandParses o t) (hi : OperandItemsParse os s) :
    OperandItemsParse (o :: os) (sep ++ t ++ s) := by
  intro rest acc f hf
  have assoc : sep ++ t ++ s ++ 93 :: rest = sep ++ (t ++ (s ++ 93 :: rest)) := by simp
  rw [assoc]
  have hlt : 0 < t.length := List.length_pos_iff.mpr (operand_ne hd)
  simp only [List.length_append] at hf
  obtain ⟨f, rfl⟩ : ∃ g, f = g + 1 := ⟨f - 1, by omega⟩
  rw [readContentArr_item acc hs (hp (s ++ 93 :: rest) (boundary_append hb (by decide)) f (by omega)),
    hi rest _ f (by omega)]
  simp

theorem operandEntriesParse_nil (sep : Bytes) (hs : Sep sep) : OperandEntriesParse [] sep := by
  intro rest acc f hf
  obtain ⟨f, rfl⟩ : ∃ g, f = g + 1 := ⟨f - 1, by omega⟩
  have ht : readTokenSkip contentKeywords (62 :: 62 :: rest) = .ok (⟨.dictEnd, []⟩, rest) :=
    readTokenSkip_of_token rfl (by decide)
  rw [readContentDict, readTokenSkip_sep _ _ _ hs, ht, ok_bind]
  rfl

theorem ends_extend {a t : Bytes} (x y : Bytes) (ht : t ≠ []) (h : EndsToken (a ++ t ++ x)) :
    EndsToken (a ++ (t ++ y)) := by
  cases a with
  | cons b u => intro d hd; exact h d (by simpa using hd)
  | nil =>
    cases t with
    | nil => exact absurd rfl ht
    | cons b t => intro d hd; exact h d (by simpa using hd)

theorem operandEntriesParse_cons (k : Bytes) (o : Obj) (es : List (Bytes × Obj)) (sep1 tk sep2 t s : Bytes)
    (hs1 : Sep sep1) (hk : NameBody k tk) (hs2 : Sep sep2) (hends : EndsToken (sep2 ++ t ++ s)) (hd : Operand o t)
    (hb : Boundary t s) (hp : OperandParses o t) (he : OperandEntriesParse es s) :
    OperandEntriesParse ((k, o) :: es) (sep1 ++ 47 :: tk ++ sep2 ++ t ++ s) := by
  intro rest acc f hf
  have ht := operand_ne hd
  have hends' : EndsToken (sep2 ++ (t ++ (s ++ 62 :: 62 :: rest))) := ends_extend s _ ht hends
  have assoc : sep1 ++ 47 :: tk ++ sep2 ++ t ++ s ++ 62 :: 62 :: rest =
      sep1 ++ (47 :: tk ++ (sep2 ++ (t ++ (s ++ 62 :: 62 :: rest)))) := by simp
  rw [assoc]
  have hlt : 0 < t.length := List.length_pos_iff.mpr ht
  simp only [List.length_append, List.length_cons] at hf
  obtain ⟨f, rfl⟩ : ∃ g, f = g + 1 := ⟨f - 1, by omega⟩
  have hn := operandParses_name k tk hk (sep2 ++ (t ++ (s ++ 62 :: 62 :: rest))) (Or.inr hends') f
    (by simp only [List.length_cons]; omega)
  have hv : readContent f (sep2 ++ (t ++ (s ++ 62 :: 62 :: rest))) = .ok (o, s ++ 62 :: 62 :: rest) := by
    rw [readContent_sep f _ hs2]; exact hp _ (boundary_append hb (by decide)) f (by omega)
  rw [readContentDict_entry acc hs1 hn hv, he rest _ f (by omega), buildDict_cons]
  cases mapFind k acc <;> rfl

/-- Every text that denotes an operand is read as that operand. -/
theorem operand_parses {o : Obj} {t : Bytes} (h : Operand o t) : OperandParses o t :=
  Operand.rec (motive_1 := fun o t _ => OperandParses o t) (motive_2 := fun l s _ => OperandItemsParse l s)
    (motive_3 := fun es s _ => OperandEntriesParse es s)
    (fun o s h1 h2 => operandParses_simple o s h1 h2)
    (fun l s _ ih => operandParses_arr l s ih)
    (fun es d s _ h1 h2 ih => operandParses_dict es d s ih h1 h2)
    (fun sep hs => operandItemsParse_nil sep hs)
    (fun o os sep t s hs hd _ hb ih1 ih2 => operandItemsParse_cons o os sep t s hs hd hb ih1 ih2)
    (fun sep hs => operandEntriesParse_nil sep hs)
    (fun k o es sep1 tk sep2 t s hs1 hk hs2 hends hd _ hb ih1 ih2 =>
      operandEntriesParse_cons k o es sep1 tk sep2 t s hs1 hk hs2 hends hd hb ih1 ih2)
    h

theorem readOperand_text {o : Obj} {t rest : Bytes} (h : Operand o t) (hb : Boundary t rest) :
    readOperand (t ++ rest) = .ok (o, rest) :=
  operand_parses h rest hb _ (by simp only [List.length_append]; omega)

theorem readOperand_sep {sep : Bytes} (x : Bytes) (hs : Sep sep) {o : Obj} {t rest : Bytes} (h : Operand o t)
    (hb : Boundary t rest) (hx : x = sep ++ (t ++ rest)) : readOperand x = .ok (o, rest) := by
  subst hx
  unfold readOperand
  rw [readContent_sep _ _ hs]
  exact operand_parses h rest hb _ (by simp only [List.length_append]; omega)

theorem readOperand_first {x : Bytes} {p : Obj × Bytes} (h : readOperand x = .ok p) :
    ∃ t r, readTokenSkip contentKeywords x = .ok (t, r) ∧ isOperand t.type = true := readContent_first h

/-! ### Operations -/

theorem operatorWord_token {w rest : Bytes} (h : OperatorWord w) (hr : EndsToken rest) :
    readTokenSkip contentKeywords (w ++ rest) = .ok (⟨dictFind contentKeywords w, w⟩, rest) ∧
      isOperand (dictFind contentKeywords w) = false ∧ dictFind contentKeywords w ≠ .endOfInput := by
  obtain ⟨h1, h2, h3, h4⟩ := h
  cases w with
  | nil => exact absurd rfl h1
  | cons c w =>
    have hreg : ∀ d ∈ c :: w, isRegular d = true := by
      intro d hd
      by_cases hq : isRegular d = true
      · exact hq
      · exact absurd ((isRegular_iff _).mp (by simpa using hq)) (h2 d hd)
    have hc := h3 c (by simp)
    have hn : (isNumeric c || c == 0x2B || c == 0x2D || c == 0x2E) = false := by
      obtain ⟨g1, g2, g3, g4⟩ := hc
      have : isNumeric c = false := by
        cases hq : isNumeric c with
        | false => rfl
        | true => exact absurd ((isDigit_iff c).mpr hq) g1
      simp [this, g2, g3, g4]
    have ht := readToken_keyword contentKeywords c w rest (hreg c (by simp)) hn
      (fun d hd => hreg d (by simp [hd])) hr
    refine ⟨readTokenSkip_of_token ht ?_, ?_, ?_⟩
    · dsimp only; unfold dictFind; split <;> simp
    · unfold dictFind
      split
      · simp only [isOperand]
        simp only [List.mem_cons, List.not_mem_nil, or_false, not_or] at h4
        rw [beq_false_of_ne h4.1, beq_false_of_ne h4.2.1, beq_false_of_ne h4.2.2]; rfl
      · rfl
    · unfold dictFind; split <;> simp

theorem opText_ne {args : List Obj} {w t : Bytes} (h : OpText args w t) : t ≠ [] := by
  cases h with
  | word _ h => exact h.1
  | operand o os w t sep s h => have := operand_ne h; simp [this]

theorem opText_ends {args : List Obj} {w t rest : Bytes} (h : OpText args w t) (hr : EndsToken rest) :
    ∃ tok r, readTokenSkip contentKeywords (t ++ rest) = .ok (tok, r) ∧ tok.type ≠ .endOfInput := by
  cases h with
  | word _ h =>
    obtain ⟨h1, -, h3⟩ := operatorWord_token h hr
    exact ⟨_, _, h1, h3⟩
  | operand o os w t sep s h hs hi hb =>
    have hb' : Boundary t (sep ++ s ++ rest) := by
      rcases hb with hb | hb
      · exact Or.inl hb
      · right
        have := opText_ne hi
        have hne : sep ++ s ≠ [] := by simp [this]
        cases hq : sep ++ s with
        | nil => exact absurd hq hne
        | cons a u => rw [hq] at hb; intro d hd; exact hb d (by simpa using hd)
    obtain ⟨tok, r, h1, h2⟩ := readOperand_first (readOperand_text h hb')
    refine ⟨tok, r, by simpa [List.append_assoc] using h1, ?_⟩
    intro he; rw [he] at h2; cases h2

theorem readOperands_text {args : List Obj} {w t : Bytes} (h : OpText args w t) (rest : Bytes) (hr : EndsToken rest) :
    ∀ (acc : List Obj) (f : Nat) (sep : Bytes), Sep sep → t.length ≤ f →
      ∃ sep', Sep sep' ∧ readOperands f (sep ++ (t ++ rest)) acc = .ok (acc ++ args, sep' ++ (w ++ rest)) := by
  induction h with
  | word w h =>
    intro acc f sep hs hf
    have hlt : 0 < w.length := List.length_pos_iff.mpr h.1
    obtain ⟨f, rfl⟩ : ∃ g, f = g + 1 := ⟨f - 1, by omega⟩
    obtain ⟨h1, h2, -⟩ := operatorWord_token h hr
    refine ⟨sep, hs, ?_⟩
    rw [readOperands, readTokenSkip_sep _ _ _ hs, h1, ok_bind]
    simp [h2]; rfl
  | operand o os w t sep1 s ho hs1 hi hb ih =>
    intro acc f sep hs hf
    have hlt : 0 < t.length := List.length_pos_iff.mpr (operand_ne ho)
    simp only [List.length_append] at hf
    obtain ⟨f, rfl⟩ : ∃ g, f = g + 1 := ⟨f - 1, by omega⟩
    have hb' : Boundary t (sep1 ++ (s ++ rest)) := by
      rcases hb with hb | hb
      · exact Or.inl hb
      · exact Or.inr (ends_extend [] _ (opText_ne hi) (by simpa using hb))
    have hro := readOperand_sep (sep ++ (t ++ (sep1 ++ (s ++ rest)))) hs ho hb' rfl
    obtain ⟨tok, r, g1, g2⟩ := readOperand_first hro
    obtain ⟨sep', hs', heq⟩ := ih (acc ++ [o]) f sep1 hs1 (by omega)
    refine ⟨sep', hs', ?_⟩
    have assoc : sep ++ (t ++ sep1 ++ s ++ rest) = sep ++ (t ++ (sep1 ++ (s ++ rest))) := by simp
    rw [assoc, readOperands, g1, ok_bind]
    simp only [g2, if_true]
    show (readOperand _ >>= _) = _
    rw [hro, ok_bind]
    show readOperands f (sep1 ++ (s ++ rest)) (acc ++ [o]) = _
    rw [heq]; simp

theorem makeOp_fits {args : List Obj} {w : Bytes} (h : OperandsFit args w) : makeOp args w = .ok ⟨args, w⟩ := by
  obtain ⟨h1, h2, h3, h4⟩ := h
  unfold makeOp
  by_cases hb : (w == b! "BT" || w == b! "ET" || w == b! "BI" || w == b! "ID" || w == b! "EI") = true
  · rw [if_pos hb]
    have : args = [] := h1 (by simpa [or_assoc] using hb)
    subst this; rfl
  rw [if_neg hb]
  by_cases hf : (w == b! "Tf") = true
  · rw [if_pos hf]
    obtain ⟨n, x, rfl, hx⟩ := h2 (by simpa using hf)
    rcases hx with ⟨i, rfl⟩ | ⟨m, p, rfl⟩ <;> rfl
  rw [if_neg hf]
  by_cases hj : (w == b! "Tj") = true
  · rw [if_pos hj]
    obtain ⟨v, rfl | rfl⟩ := h3 (by simpa using hj) <;> rfl
  rw [if_neg hj]
  by_cases hJ : (w == b! "TJ") = true
  · rw [if_pos hJ]
    obtain ⟨l, rfl⟩ := h4 (by simpa using hJ)
    rfl
  rw [if_neg hJ]; rfl

theorem readOperation_text {args : List Obj} {w t : Bytes} (h : OpText args w t) (hf : OperandsFit args w)
    (hw : OperatorWord w) {sep rest : Bytes} (hs : Sep sep) (hr : EndsToken rest) :
    readOperation (sep ++ (t ++ rest)) = .ok (⟨args, w⟩, rest) := by
  unfold readOperation
  obtain ⟨sep', hs', heq⟩ := readOperands_text h rest hr [] ((sep ++ (t ++ rest)).length + 1) sep hs
    (by simp only [List.length_append]; omega)
  rw [heq, ok_bind]
  show (readTokenSkip contentKeywords (sep' ++ (w ++ rest)) >>= _) = _
  rw [readTokenSkip_sep _ _ _ hs', (operatorWord_token hw hr).1, ok_bind]
  show (makeOp ([] ++ args) w >>= _) = _
  rw [List.nil_append, makeOp_fits hf]; rfl

theorem opText_word {args : List Obj} {w t : Bytes} (h : OpText args w t) : OperatorWord w := by
  induction h with
  | word w h => exact h
  | operand _ _ _ _ _ _ _ _ _ _ ih => exact ih

/-! ### Instructions -/

theorem word_BT : OperatorWord (b! "BT") := ⟨by decide, by decide, by
  intro c hc; cases hc; exact ⟨by unfold IsDigit; decide, by decide, by decide, by decide⟩, by decide⟩
theorem word_ET : OperatorWord (b! "ET") := ⟨by decide, by decide, by
  intro c hc; cases hc; exact ⟨by unfold IsDigit; decide, by decide, by decide, by decide⟩, by decide⟩
theorem word_BI : OperatorWord (b! "BI") := ⟨by decide, by decide, by
  intro c hc; cases hc; exact ⟨by unfold IsDigit; decide, by decide, by decide, by decide⟩, by decide⟩
theorem word_ID : OperatorWord (b! "ID") := ⟨by decide, by decide, by
  intro c hc; cases hc; exact ⟨by unfold IsDigit; decide, by decide, by decide, by decide⟩, by decide⟩

theorem fits_nil {w : Bytes} (h1 : w ≠ b! "Tf") (h2 : w ≠ b! "Tj") (h3 : w ≠ b! "TJ") : OperandsFit [] w :=
  ⟨fun _ => rfl, fun h => absurd h h1, fun h => absurd h h2, fun h => absurd h h3⟩

theorem readText_body {ops : List COp} {u : Bytes} (h : TextBody ops u) (rest : Bytes) (hr : EndsToken rest) :
    ∀ (acc : List COp) (f : Nat), u.length ≤ f →
      readText f (u ++ rest) acc = .ok (.text (acc ++ ops), rest) := by
  induction h with
  | done sep hs =>
    intro acc f hf
    have hlen : (b! "ET").length = 2 := rfl
    simp only [List.length_append, hlen] at hf
    obtain ⟨f, rfl⟩ : ∃ g, f = g + 1 := ⟨f - 1, by omega⟩
    have hop := readOperation_text (.word _ word_ET) (fits_nil (by decide) (by decide) (by decide)) word_ET hs hr
    obtain ⟨g1, g2, g3⟩ := operatorWord_token word_ET hr
    rw [List.append_assoc, readText, readTokenSkip_sep _ _ _ hs, g1, ok_bind]
    simp only [show (dictFind contentKeywords (b! "ET") == TokType.endOfInput) = false by simpa using g3]
    show (readOperation _ >>= _) = _
    rw [hop, ok_bind]
    simp; rfl
  | cons args w os sep t s hs ho hfit hne hends hb ih =>
    intro acc f hf
    have hlt : 0 < t.length := List.length_pos_iff.mpr (opText_ne ho)
    simp only [List.length_append] at hf
    obtain ⟨f, rfl⟩ : ∃ g, f = g + 1 := ⟨f - 1, by omega⟩
    have hends' : EndsToken (s ++ rest) := by
      cases s with
      | nil => exact hr
      | cons a u => intro d hd; exact hends d (by simpa using hd)
    have hop := readOperation_text ho hfit (opText_word ho) hs hends'
    obtain ⟨tok, r, g1, g2⟩ := opText_ends ho hends'
    have assoc : sep ++ t ++ s ++ rest = sep ++ (t ++ (s ++ rest)) := by simp
    rw [assoc, readText, readTokenSkip_sep _ _ _ hs, g1, ok_bind]
    simp only [show (tok.type == TokType.endOfInput) = false by simpa using g2]
    show (readOperation _ >>= _) = _
    rw [hop, ok_bind]
    simp only [show (w == b! "ET") = false by simpa using hne]
    show readText f (s ++ rest) (acc ++ [⟨args, w⟩]) = _
    rw [ih _ f (by omega)]; simp

theorem isWhiteSpace_mem (c : Byte) : isWhiteSpace c = true ↔ c ∈ whiteSpace := by
  revert c; apply forall_byte; decide +kernel

theorem noEndMark_tail {c : Byte} {l : Bytes} (h : NoEndMark (c :: l)) : NoEndMark l := by
  cases l with
  | nil => trivial
  | cons d l => exact h.2

theorem readImageData_text (c1 c2 : Byte) (s : Bytes) (h1 : c1 ∈ whiteSpace) (h2 : c2 ∈ whiteSpace) (data : Bytes) :
    (∀ acc, NoEndMark data →
      readImageData .plain (data ++ c1 :: 0x45 :: 0x49 :: c2 :: s) acc = .ok (acc ++ data, s)) ∧
    (∀ acc w, w ∈ whiteSpace → NoEndMark (w :: data) →
      readImageData (.ws w) (data ++ c1 :: 0x45 :: 0x49 :: c2 :: s) acc = .ok (acc ++ w :: data, s)) := by
  have w1 := (isWhiteSpace_mem c1).mpr h1
  have w2 := (isWhiteSpace_mem c2).mpr h2
  have hE : (c1 == 0x45) = false := by
    cases hq : c1 == 0x45 with
    | false => rfl
    | true => rw [beq_iff_eq] at hq; subst hq; revert h1; decide
  induction data with
  | nil =>
    constructor
    · intro acc _
      simp [readImageData, w1, w2]
    · intro acc w hw _
      simp [readImageData, w1, w2, hE]
  | cons c data ih =>
    obtain ⟨ih1, ih2⟩ := ih
    constructor
    · intro acc hn
      rw [List.cons_append, readImageData]
      by_cases hc : isWhiteSpace c = true
      · rw [if_pos hc, ih2 acc c ((isWhiteSpace_mem c).mp hc) hn]
      · rw [if_neg hc, ih1 _ (noEndMark_tail hn)]; simp
    · intro acc w hw hn
      have hcE : (c == 0x45) = false := by
        cases hq : c == 0x45 with
        | false => rfl
        | true => rw [beq_iff_eq] at hq; exact absurd ⟨hw, hq⟩ hn.1
      rw [List.cons_append, readImageData, hcE]
      simp only [Bool.false_eq_true, if_false]
      by_cases hc : isWhiteSpace c = true
      · rw [if_pos hc, ih2 _ c ((isWhiteSpace_mem c).mp hc) hn.2]; simp
      · rw [if_neg hc, ih1 _ (noEndMark_tail hn.2)]; simp

theorem name_token_sep {k tk x : Bytes} (hk : NameBody k tk) (hx : EndsToken x) :
    readTokenSkip contentKeywords (47 :: tk ++ x) = .ok (⟨.name, k⟩, x) :=
  readTokenSkip_of_token (readToken_name contentKeywords hk x hx) (by simp)

theorem readImageDict_text {es : List (Bytes × Obj)} {u : Bytes} (h : ImageEntries es u) (rest : Bytes)
    (hr : EndsToken rest) : ∀ (acc : Dict) (f : Nat), u.length ≤ f → SortedKeys acc → (es.map Prod.fst).Nodup →
      (∀ x ∈ es, mapFind x.1 acc = none) →
      ∃ sep', Sep sep' ∧ readImageDict f (u ++ rest) acc = .ok (buildDict acc es, sep' ++ (b! "ID" ++ rest)) := by
  induction h with
  | done sep hs =>
    intro acc f hf _ _ _
    have hlen : (b! "ID").length = 2 := rfl
    simp only [List.length_append, hlen] at hf
    obtain ⟨f, rfl⟩ : ∃ g, f = g + 1 := ⟨f - 1, by omega⟩
    refine ⟨sep, hs, ?_⟩
    rw [List.append_assoc, readImageDict, readTokenSkip_sep _ _ _ hs, (operatorWord_token word_ID hr).1, ok_bind]
    rfl
  | cons k o es sep1 tk sep2 t s hs1 hk hs2 hends ho hi hb hnull ih =>
    intro acc f hf hsort hnd hfresh
    have ht := operand_ne ho
    have hlt : 0 < t.length := List.length_pos_iff.mpr ht
    simp only [List.length_append, List.length_cons] at hf
    obtain ⟨f, rfl⟩ : ∃ g, f = g + 1 := ⟨f - 1, by omega⟩
    have hne : s ≠ [] := by cases hi <;> simp
    have hb' : Boundary t (s ++ rest) := by
      rcases hb with hb | hb
      · exact Or.inl hb
      · exact Or.inr (ends_extend [] rest (a := []) hne (by simpa using hb))
    have hends' : EndsToken (sep2 ++ (t ++ (s ++ rest))) := ends_extend s _ ht hends
    have hro := readOperand_sep (sep2 ++ (t ++ (s ++ rest))) hs2 ho hb' rfl
    have assoc : sep1 ++ 47 :: tk ++ sep2 ++ t ++ s ++ rest =
        sep1 ++ (47 :: tk ++ (sep2 ++ (t ++ (s ++ rest)))) := by simp
    have hkacc : mapFind k acc = none := hfresh (k, o) (by simp)
    simp only [List.map_cons, List.nodup_cons] at hnd
    obtain ⟨sep', hs', heq⟩ := ih (mapInsert k o acc) f (by omega) (mapInsert_sorted hsort) hnd.2 (by
      intro x hx
      rw [mapFind_insert hsort]
      have hxk : x.1 ≠ k := fun he => hnd.1 (he ▸ List.mem_map_of_mem hx)
      have := hfresh x (by simp [hx])
      simp [hxk, this])
    refine ⟨sep', hs', ?_⟩
    rw [assoc, readImageDict, readTokenSkip_sep _ _ _ hs1, name_token_sep hk hends', ok_bind]
    show (readOperand _ >>= _) = _
    rw [hro, ok_bind]
    have hbd : buildDict acc ((k, o) :: es) = buildDict (mapInsert k o acc) es := by
      rw [buildDict_cons, hkacc]
      cases o <;> first | rfl | exact absurd rfl hnull
    rw [hbd, ← heq]
    cases o <;> first | exact absurd rfl hnull | (simp only [hkacc])

theorem readImage_text {es d : List (Bytes × Obj)} {data u : Bytes} {c1 c2 : Byte} {s : Bytes}
    (h : ImageEntries es u) (hsort : SortedKeys d) (hnd : (es.map Prod.fst).Nodup)
    (hval : ∀ k, valueAt k d = firstValue k es) (hends : EndsToken (data ++ [c1])) (hn : NoEndMark data)
    (h1 : c1 ∈ whiteSpace) (h2 : c2 ∈ whiteSpace) :
    readImage (u ++ (data ++ c1 :: 0x45 :: 0x49 :: c2 :: s)) = .ok (.image d data, s) := by
  have hr : EndsToken (data ++ c1 :: 0x45 :: 0x49 :: c2 :: s) := by
    cases data with
    | nil => intro x hx; exact hends x (by simpa using hx)
    | cons a v => intro x hx; exact hends x (by simpa using hx)
  unfold readImage
  obtain ⟨sep', hs', heq⟩ := readImageDict_text h _ hr []
    ((u ++ (data ++ c1 :: 0x45 :: 0x49 :: c2 :: s)).length + 1)
    (by simp only [List.length_append]; omega) List.Pairwise.nil hnd (fun _ _ => rfl)
  rw [heq, ok_bind]
  show (readOperation (sep' ++ (b! "ID" ++ _)) >>= _) = _
  rw [readOperation_text (.word _ word_ID) (fits_nil (by decide) (by decide) (by decide)) word_ID hs' hr, ok_bind]
  show (readImageData .plain _ [] >>= _) = _
  rw [(readImageData_text c1 c2 s h1 h2 data).1 [] hn, ok_bind]
  have hd : buildDict [] es = d := by
    obtain ⟨b1, b2⟩ := buildDict_spec es [] List.Pairwise.nil
    apply sorted_ext b1 hsort
    intro k; rw [b2 k, ← valueAt_eq k d, hval k]; rfl
  rw [hd]; rfl

theorem readInstructionsN_step {s r : Bytes} {i : Instr} {tok : Token} {q : Bytes} {f : Nat} (acc : List Instr)
    (h1 : readTokenSkip contentKeywords s = .ok (tok, q)) (h2 : tok.type ≠ .endOfInput)
    (h3 : readInstruction s = .ok (i, r)) : readInstructionsN (f + 1) s acc = readInstructionsN f r (acc ++ [i]) := by
  rw [readInstructionsN, h1, ok_bind]
  simp only [show (tok.type == TokType.endOfInput) = false by simpa using h2]
  show (readInstruction s >>= _) = _
  rw [h3, ok_bind]

theorem end_of_sep {sep : Bytes} (h : Sep sep) : readTokenSkip contentKeywords sep = .ok (⟨.endOfInput, []⟩, []) := by
  have := readTokenSkip_sep contentKeywords sep [] h
  rw [List.append_nil] at this
  rw [this]; rfl

theorem readInstructionsN_text {is : List Instr} {s : Bytes} (h : ContentText is s) :
    ∀ (acc : List Instr) (f : Nat), s.length + 1 ≤ f → readInstructionsN f s acc = .ok (acc ++ is) := by
  induction h with
  | nil sep hs =>
    intro acc f hf
    obtain ⟨f, rfl⟩ : ∃ g, f = g + 1 := ⟨f - 1, by omega⟩
    rw [readInstructionsN, end_of_sep hs, ok_bind]
    simp; rfl
  | op args w is sep t s hs ho hfit h1 h2 hends _ ih =>
    intro acc f hf
    have hlt : 0 < t.length := List.length_pos_iff.mpr (opText_ne ho)
    simp only [List.length_append] at hf
    obtain ⟨f, rfl⟩ : ∃ g, f = g + 1 := ⟨f - 1, by omega⟩
    have hop := readOperation_text ho hfit (opText_word ho) hs hends
    obtain ⟨tok, r, g1, g2⟩ := opText_ends ho hends
    have hi : readInstruction (sep ++ (t ++ s)) = .ok (.op ⟨args, w⟩, s) := by
      unfold readInstruction
      rw [hop, ok_bind]
      simp [show (w == b! "BI") = false by simpa using h2, show (w == b! "BT") = false by simpa using h1]
      rfl
    rw [List.append_assoc, readInstructionsN_step acc (by rw [readTokenSkip_sep _ _ _ hs]; exact g1) g2 hi,
      ih _ f (by omega)]
    simp
  | text ops is sep u s hs hb hu hends _ ih =>
    intro acc f hf
    have hlen : (b! "BT").length = 2 := rfl
    simp only [List.length_append, hlen] at hf
    obtain ⟨f, rfl⟩ : ∃ g, f = g + 1 := ⟨f - 1, by omega⟩
    have hne : u ≠ [] := by
      cases hb with
      | done => simp
      | cons args w os sep t s hs ho => have := opText_ne ho; simp [this]
    have hends' : EndsToken (u ++ s) := ends_extend [] s (a := []) hne (by simpa using hu)
    have hop := readOperation_text (.word _ word_BT) (fits_nil (by decide) (by decide) (by decide)) word_BT hs hends'
    obtain ⟨tok, r, g1, g2⟩ := opText_ends (.word _ word_BT) hends'
    have hi : readInstruction (sep ++ (b! "BT" ++ (u ++ s))) = .ok (.text ops, s) := by
      unfold readInstruction
      rw [hop, ok_bind]
      show readText ((u ++ s).length + 1) (u ++ s) [] = _
      rw [readText_body hb s hends [] _ (by simp only [List.length_append]; omega)]; rfl
    have assoc : sep ++ b! "BT" ++ u ++ s = sep ++ (b! "BT" ++ (u ++ s)) := by simp
    rw [assoc, readInstructionsN_step acc (by rw [readTokenSkip_sep _ _ _ hs]; exact g1) g2 hi, ih _ f (by omega)]
    simp
  | image es d data is sep u c1 c2 s hs he hu hsort hnd hval hends hn w1 w2 _ ih =>
    intro acc f hf
    have hlen : (b! "BI").length = 2 := rfl
    simp only [List.length_append, List.length_cons, hlen] at hf
    obtain ⟨f, rfl⟩ : ∃ g, f = g + 1 := ⟨f - 1, by omega⟩
    have hne : u ≠ [] := by cases he <;> simp
    have hends' : EndsToken (u ++ (data ++ c1 :: 0x45 :: 0x49 :: c2 :: s)) :=
      ends_extend [] _ (a := []) hne (by simpa using hu)
    have hop := readOperation_text (.word _ word_BI) (fits_nil (by decide) (by decide) (by decide)) word_BI hs hends'
    obtain ⟨tok, r, g1, g2⟩ := opText_ends (.word _ word_BI) hends'
    have hi : readInstruction (sep ++ (b! "BI" ++ (u ++ (data ++ c1 :: 0x45 :: 0x49 :: c2 :: s)))) =
        .ok (.image d data, s) := by
      unfold readInstruction
      rw [hop, ok_bind]
      exact readImage_text he hsort hnd hval hends hn w1 w2
    have assoc : sep ++ b! "BI" ++ u ++ data ++ c1 :: b! "EI" ++ c2 :: s =
        sep ++ (b! "BI" ++ (u ++ (data ++ c1 :: 0x45 :: 0x49 :: c2 :: s))) := by simp
    rw [assoc, readInstructionsN_step acc (by rw [readTokenSkip_sep _ _ _ hs]; exact g1) g2 hi, ih _ f (by omega)]
    simp

theorem contentText_reads {is : List Instr} {s : Bytes} (h : ContentText is s) : readInstructions s = .ok is := by
  have := readInstructionsN_text h [] (s.length + 1) (by omega)
  rw [List.nil_append] at this
  exact this

/-! ### Writing -/

theorem endsToken_lf (x : Bytes) : EndsToken (0x0A :: x) := by intro d hd; simp at hd; subst hd; decide

theorem sepLf : Sep [0x0A] := .ws 10 [] (by decide) .nil

theorem writeItems_operand (l : List Obj) (h : ∀ o ∈ l, Operand o (writeObj o)) (sep : Bytes) (hs : Sep sep) :
    OperandItems l (sep ++ writeItems l) := by
  induction l generalizing sep with
  | nil => simpa [writeItems] using OperandItems.nil sep hs
  | cons o os ih =>
    cases os with
    | nil =>
      have := OperandItems.cons o [] sep (writeObj o) [] hs (h o (by simp)) (OperandItems.nil [] .nil)
        (Or.inr (by intro d hd; simp at hd))
      simpa [writeItems] using this
    | cons o' os' =>
      have hi := ih (fun x hx => h x (by simp at hx ⊢; exact Or.inr hx)) [0x20] sep_space
      have := OperandItems.cons o (o' :: os') sep (writeObj o) _ hs (h o (by simp)) hi (Or.inr (ends_space _))
      have e : writeItems (o :: o' :: os') = writeObj o ++ 0x20 :: writeItems (o' :: os') := by
        rw [writeItems]
      rw [e]
      simpa using this

theorem writeEntries_operand (d : Dict) (h : ∀ x ∈ d, Operand x.2 (writeObj x.2)) (sep : Bytes) (hs : Sep sep) :
    OperandEntries d (sep ++ writeEntries d) := by
  induction d generalizing sep with
  | nil => simpa [writeEntries] using OperandEntries.nil sep hs
  | cons a es ih =>
    obtain ⟨k, o⟩ := a
    have ho := h (k, o) (by simp)
    cases es with
    | nil =>
      have := OperandEntries.cons k o [] sep (encodeName k) [0x20] (writeObj o) [] hs (encodeName_body k) sep_space
        (ends_space _) ho (OperandEntries.nil [] .nil) (Or.inr (by intro d hd; simp at hd))
      simpa [writeEntries, writeName] using this
    | cons a' es' =>
      have hi := ih (fun x hx => h x (by simp at hx ⊢; exact Or.inr hx)) [0x20] sep_space
      have := OperandEntries.cons k o (a' :: es') sep (encodeName k) [0x20] (writeObj o) _ hs (encodeName_body k)
        sep_space (ends_space _) ho hi (Or.inr (ends_space _))
      have e : writeEntries ((k, o) :: a' :: es') =
          writeName k ++ 0x20 :: (writeObj o ++ 0x20 :: writeEntries (a' :: es')) := by rw [writeEntries]
      rw [e]
      simpa [writeName] using this

/-- The text of a savable object without references is the text of an operand. -/
theorem writeObj_operand {o : Obj} (h : Savable o) (hn : NoRef o) : Operand o (writeObj o) := by
  induction h with
  | null => exact .simple _ _ trivial (writeObj_denotes .null)
  | bool b => exact .simple _ _ trivial (writeObj_denotes (.bool b))
  | int i h1 h2 => exact .simple _ _ trivial (writeObj_denotes (.int i h1 h2))
  | real m p h => exact .simple _ _ trivial (writeObj_denotes (.real m p h))
  | name n => exact .simple _ _ trivial (writeObj_denotes (.name n))
  | lit v => exact .simple _ _ trivial (writeObj_denotes (.lit v))
  | hex v => exact .simple _ _ trivial (writeObj_denotes (.hex v))
  | ref n g hn' hg => cases hn with | simple _ h => exact h.elim
  | arr l _ ih =>
    cases hn with
    | simple _ h => exact h.elim
    | arr _ hn =>
      have := Operand.arr l _ (writeItems_operand l (fun o ho => ih o ho (hn o ho)) [] .nil)
      simpa [writeObj] using this
  | dict d hs _ hnull ih =>
    cases hn with
    | simple _ h => exact h.elim
    | dict _ hn =>
      have := Operand.dict d d _ (writeEntries_operand d (fun x hx => ih x hx (hn x hx)) [] .nil) hs
        (firstValue_noNull d hnull)
      simpa [writeObj] using this

theorem writeOp_text {args : List Obj} {w : Bytes} (h : ∀ x ∈ args, Savable x ∧ NoRef x) (hw : OperatorWord w) :
    OpText args w (writeOperands args ++ w) := by
  induction args with
  | nil => exact .word w hw
  | cons o os ih =>
    obtain ⟨h1, h2⟩ := h o (by simp)
    have := OpText.operand o os w (writeObj o) [0x20] _ (writeObj_operand h1 h2) sep_space
      (ih (fun x hx => h x (by simp [hx]))) (Or.inr (ends_space _))
    simpa [writeOperands] using this

theorem writeOps_text (ops : List COp) (h : ∀ o ∈ ops, OpSavable o ∧ o.op ≠ b! "ET") :
    TextBody ops (0x0A :: (writeOps ops ++ b! "ET")) := by
  induction ops with
  | nil => simpa [writeOps] using TextBody.done [0x0A] sepLf
  | cons o os ih =>
    obtain ⟨args, w⟩ := o
    obtain ⟨⟨h1, h2, h3⟩, h4⟩ := h ⟨args, w⟩ (by simp)
    have := TextBody.cons args w os [0x0A] _ _ sepLf (writeOp_text h1 h2) h3 h4 (endsToken_lf _)
      (ih (fun x hx => h x (by simp [hx])))
    simpa [writeOps, writeOp] using this

theorem writeImageDict_text (d : Dict) (h : ∀ x ∈ d, Savable x.2 ∧ NoRef x.2 ∧ x.2 ≠ .null) :
    ImageEntries d (0x0A :: (writeImageDict d ++ b! "ID")) := by
  induction d with
  | nil => simpa [writeImageDict] using ImageEntries.done [0x0A] sepLf
  | cons a es ih =>
    obtain ⟨k, o⟩ := a
    obtain ⟨h1, h2, h3⟩ := h (k, o) (by simp)
    have := ImageEntries.cons k o es [0x0A] (encodeName k) [0x20] (writeObj o) _ sepLf (encodeName_body k) sep_space
      (ends_space _) (writeObj_operand h1 h2) (ih (fun x hx => h x (by simp [hx]))) (Or.inr (endsToken_lf _)) h3
    simpa [writeImageDict, writeObj, writeName] using this

theorem sortedKeys_nodup {d : Dict} (h : SortedKeys d) : (d.map Prod.fst).Nodup := by
  unfold SortedKeys at h
  unfold List.Nodup
  rw [List.pairwise_map]
  exact h.imp (fun hab => bytesLt_ne hab)

theorem writeInstructions_text (is : List Instr) (h : ∀ i ∈ is, InstrSavable i) (sep : Bytes) (hs : Sep sep) :
    ContentText (is.map reread) (sep ++ writeInstructions is) := by
  induction is generalizing sep with
  | nil => simpa [writeInstructions] using ContentText.nil sep hs
  | cons i is ih =>
    have hi := h i (by simp)
    have hrest := ih (fun x hx => h x (by simp [hx])) [0x0A] sepLf
    cases i with
    | op o =>
      obtain ⟨args, w⟩ := o
      obtain ⟨⟨h1, h2, h3⟩, h4, h5⟩ := hi
      have := ContentText.op args w _ sep _ _ hs (writeOp_text h1 h2) h3 h4 h5 (endsToken_lf _) hrest
      simpa [writeInstructions, writeInstr, writeOp, reread] using this
    | text ops =>
      have := ContentText.text ops _ sep _ _ hs (writeOps_text ops hi) (endsToken_lf _) (endsToken_lf _) hrest
      simpa [writeInstructions, writeInstr, reread] using this
    | image d data =>
      obtain ⟨h1, h2, h3⟩ := hi
      have hrest' := ih (fun x hx => h x (by simp [hx])) [] .nil
      have := ContentText.image d d (10 :: data) _ sep _ 10 10 _ hs (writeImageDict_text d h2) (endsToken_lf _) h1
        (sortedKeys_nodup h1) (firstValue_noNull d (fun x hx => (h2 x hx).2.2)) (endsToken_lf _) h3 (by decide) (by decide)
        hrest'
      simpa [writeInstructions, writeInstr, reread] using this

end VPdf
