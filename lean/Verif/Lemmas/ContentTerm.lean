import Verif.Lemmas.Content
import Verif.Lemmas.ParseTerm
/-
  Reading of content streams: progress, termination, and what is read.
-/
namespace VPdf
open Spec

/-- The three readers of operands, for one amount of fuel. -/
structure ContentEnds (f : Nat) : Prop where
  d1 : ∀ s, 2 * s.length + 1 ≤ f → readContent f s ≠ .error .timeout
  d2 : ∀ s o r, readContent f s = .ok (o, r) → r <:+ s ∧ r.length < s.length
  a1 : ∀ s acc, 2 * s.length + 2 ≤ f → readContentArr f s acc ≠ .error .timeout
  a2 : ∀ s acc o r, readContentArr f s acc = .ok (o, r) → r <:+ s ∧ r.length < s.length
  m1 : ∀ s acc, 2 * s.length + 2 ≤ f → readContentDict f s acc ≠ .error .timeout
  m2 : ∀ s acc d r, readContentDict f s acc = .ok (d, r) → r <:+ s ∧ r.length < s.length

theorem contentEnds (f : Nat) : ContentEnds f := by
  induction f with
  | zero =>
    refine ⟨?_, ?_, ?_, ?_, ?_, ?_⟩
    · intro s h; omega
    · intro s o r h; unfold readContent at h; cases h
    · intro s acc h; omega
    · intro s acc o r h; unfold readContentArr at h; cases h
    · intro s acc h; omega
    · intro s acc d r h; unfold readContentDict at h; cases h
  | succ f ih =>
    refine ⟨?_, ?_, ?_, ?_, ?_, ?_⟩
    · intro s hf
      unfold readContent
      refine bind_no_timeout (readTokenSkip_no_timeout _ _) (fun ⟨t, r⟩ ht => ?_)
      obtain ⟨hr, -, hlt⟩ := readTokenSkip_progress ht
      dsimp only
      split
      · rename_i hty
        have hlt := hlt (by rw [hty]; simp)
        exact bind_no_timeout (ih.m1 r [] (by omega)) (fun _ _ h => by cases h)
      · exact bind_no_timeout (stoll_no_timeout _) (fun _ _ h => by cases h)
      · rename_i hty
        have hlt := hlt (by rw [hty]; simp)
        exact ih.a1 r [] (by omega)
      · intro h; cases h
      · exact bind_no_timeout (decodeHexPairs_no_timeout _) (fun _ _ h => by cases h)
      · exact bind_no_timeout (decodeLiteral_no_timeout _ _ _ (Nat.le_refl _)) (fun _ _ h => by cases h)
      · exact bind_no_timeout (parseReal_no_timeout _) (fun _ _ h => by cases h)
      · refine ite_ne (fun _ => by intro h; cases h) (fun _ => ?_)
        refine ite_ne (fun _ => by intro h; cases h) (fun _ => ?_)
        exact ite_ne (fun _ => by intro h; cases h) (fun _ => by intro h; cases h)
      · intro h; cases h
    · intro s o r h
      unfold readContent at h
      obtain ⟨⟨t, r1⟩, ht, h⟩ := bind_ok h
      obtain ⟨hr, -, hlt⟩ := readTokenSkip_progress ht
      dsimp only at h
      split at h
      · rename_i hty
        have hlt := hlt (by rw [hty]; simp)
        obtain ⟨⟨d, r'⟩, hd, h⟩ := bind_ok h
        obtain ⟨h1, h2⟩ := ih.m2 r1 [] d r' hd
        cases h; exact ⟨h1.trans hr, by dsimp only; omega⟩
      · rename_i hty
        have hlt := hlt (by rw [hty]; simp)
        obtain ⟨v, -, h⟩ := bind_ok h
        cases h; exact ⟨hr, hlt⟩
      · rename_i hty
        have hlt := hlt (by rw [hty]; simp)
        obtain ⟨h1, h2⟩ := ih.a2 r1 [] o r h
        exact ⟨h1.trans hr, by omega⟩
      · rename_i hty
        have hlt := hlt (by rw [hty]; simp)
        cases h; exact ⟨hr, hlt⟩
      · rename_i hty
        have hlt := hlt (by rw [hty]; simp)
        obtain ⟨v, -, h⟩ := bind_ok h
        cases h; exact ⟨hr, hlt⟩
      · rename_i hty
        have hlt := hlt (by rw [hty]; simp)
        obtain ⟨v, -, h⟩ := bind_ok h
        cases h; exact ⟨hr, hlt⟩
      · rename_i hty
        have hlt := hlt (by rw [hty]; simp)
        obtain ⟨v, hv, h⟩ := bind_ok h
        cases h; exact ⟨hr, hlt⟩
      · rename_i w hty
        have hlt := hlt (by rw [hty]; simp)
        split at h
        · cases h; exact ⟨hr, hlt⟩
        · split at h
          · cases h; exact ⟨hr, hlt⟩
          · split at h
            · cases h; exact ⟨hr, hlt⟩
            · cases h
      · cases h
    · intro s acc hf
      unfold readContentArr
      refine bind_no_timeout (readTokenSkip_no_timeout _ _) (fun ⟨t, r⟩ ht => ?_)
      refine ite_ne (fun _ => by intro h; cases h) (fun _ => ?_)
      refine bind_no_timeout (ih.d1 s (by omega)) (fun ⟨o, r'⟩ ho => ?_)
      obtain ⟨h1, h2⟩ := ih.d2 s o r' ho
      exact ih.a1 r' _ (by omega)
    · intro s acc o r h
      unfold readContentArr at h
      obtain ⟨⟨t, r1⟩, ht, h⟩ := bind_ok h
      obtain ⟨hr, -, hlt⟩ := readTokenSkip_progress ht
      dsimp only at h
      split at h
      · rename_i hty
        have hty : t.type = .arrayEnd := by simpa using hty
        have hlt := hlt (by rw [hty]; simp)
        cases h; exact ⟨hr, hlt⟩
      · obtain ⟨⟨o', r'⟩, ho, h⟩ := bind_ok h
        obtain ⟨h1, h2⟩ := ih.d2 s o' r' ho
        obtain ⟨h4, h5⟩ := ih.a2 r' _ o r h
        exact ⟨h4.trans h1, by omega⟩
    · intro s acc hf
      unfold readContentDict
      refine bind_no_timeout (readTokenSkip_no_timeout _ _) (fun ⟨t, r⟩ ht => ?_)
      refine ite_ne (fun _ => by intro h; cases h) (fun _ => ?_)
      refine bind_no_timeout (ih.d1 s (by omega)) (fun ⟨k, r1⟩ hk => ?_)
      obtain ⟨h1, h2⟩ := ih.d2 s k r1 hk
      refine bind_no_timeout (ih.d1 r1 (by omega)) (fun ⟨v, r2⟩ hv => ?_)
      obtain ⟨h3, h4⟩ := ih.d2 r1 v r2 hv
      dsimp only
      split
      · exact ih.m1 r2 _ (by omega)
      · split <;> exact ih.m1 r2 _ (by omega)
      · exact ih.m1 r2 _ (by omega)
    · intro s acc d r h
      unfold readContentDict at h
      obtain ⟨⟨t, r0⟩, ht, h⟩ := bind_ok h
      obtain ⟨hr, -, hlt⟩ := readTokenSkip_progress ht
      dsimp only at h
      split at h
      · rename_i hty
        have hty : t.type = .dictEnd := by simpa using hty
        have hlt := hlt (by rw [hty]; simp)
        cases h; exact ⟨hr, hlt⟩
      · obtain ⟨⟨k, r1⟩, hk, h⟩ := bind_ok h
        obtain ⟨h1, h2⟩ := ih.d2 s k r1 hk
        obtain ⟨⟨v, r2⟩, hv, h⟩ := bind_ok h
        obtain ⟨h3, h4⟩ := ih.d2 r1 v r2 hv
        have fin : ∀ acc', readContentDict f r2 acc' = .ok (d, r) → r <:+ s ∧ r.length < s.length := by
          intro acc' h
          obtain ⟨q1, q2⟩ := ih.m2 r2 acc' d r h
          exact ⟨q1.trans (h3.trans h1), by omega⟩
        dsimp only at h
        split at h
        · exact fin _ h
        · split at h <;> exact fin _ h
        · exact fin _ h

theorem readOperand_no_timeout (s : Bytes) : readOperand s ≠ .error .timeout := (contentEnds _).d1 s (by omega)

theorem readOperand_suffix {s r : Bytes} {o : Obj} (h : readOperand s = .ok (o, r)) : r <:+ s ∧ r.length < s.length :=
  (contentEnds _).d2 s o r h

theorem readOperands_no_timeout (f : Nat) (s : Bytes) (acc : List Obj) (hf : s.length < f) :
    readOperands f s acc ≠ .error .timeout := by
  induction f generalizing s acc with
  | zero => omega
  | succ f ih =>
    unfold readOperands
    refine bind_no_timeout (readTokenSkip_no_timeout _ _) (fun ⟨t, r⟩ _ => ?_)
    refine ite_ne (fun _ => ?_) (fun _ => by intro h; cases h)
    refine bind_no_timeout (readOperand_no_timeout _) (fun ⟨o, r'⟩ ho => ?_)
    have := readOperand_suffix ho
    exact ih r' _ (by omega)

/-- What remains behind the operands: a suffix that begins with a token that is no operand. -/
theorem readOperands_suffix (f : Nat) (s : Bytes) (acc args : List Obj) (r : Bytes)
    (h : readOperands f s acc = .ok (args, r)) :
    r <:+ s ∧ (r = s ∨ r.length < s.length) ∧
      ∃ t q, readTokenSkip contentKeywords r = .ok (t, q) ∧ isOperand t.type = false := by
  induction f generalizing s acc with
  | zero => cases h
  | succ f ih =>
    unfold readOperands at h
    obtain ⟨⟨t, r1⟩, ht, h⟩ := bind_ok h
    dsimp only at h
    split at h
    · obtain ⟨⟨o, r2⟩, ho, h⟩ := bind_ok h
      obtain ⟨h1, h2⟩ := readOperand_suffix ho
      obtain ⟨g1, g2, g3⟩ := ih r2 _ h
      have := g1.length_le
      exact ⟨g1.trans h1, Or.inr (by omega), g3⟩
    · rename_i hn
      cases h
      exact ⟨List.suffix_refl _, Or.inl rfl, t, r1, ht, by simpa using hn⟩

theorem makeOp_no_timeout (args : List Obj) (w : Bytes) : makeOp args w ≠ .error .timeout := by
  unfold makeOp
  refine ite_ne (fun _ => ?_) (fun _ => ?_)
  · exact ite_ne (fun _ => by intro h; cases h) (fun _ => by intro h; cases h)
  refine ite_ne (fun _ => ?_) (fun _ => ?_)
  · split
    · exact ite_ne (fun _ => by intro h; cases h) (fun _ => by intro h; cases h)
    · intro h; cases h
  refine ite_ne (fun _ => ?_) (fun _ => ?_)
  · split <;> (intro h; cases h)
  refine ite_ne (fun _ => ?_) (fun _ => by intro h; cases h)
  split <;> (intro h; cases h)

theorem makeOp_ok {args : List Obj} {w : Bytes} {o : COp} (h : makeOp args w = .ok o) : o = ⟨args, w⟩ ∧ OperandsFit args w := by
  unfold makeOp at h
  by_cases hb : (w == b! "BT" || w == b! "ET" || w == b! "BI" || w == b! "ID" || w == b! "EI") = true
  · rw [if_pos hb] at h
    cases args with
    | nil =>
      cases h
      refine ⟨rfl, fun _ => rfl, ?_, ?_, ?_⟩ <;> (intro e; subst e; exact absurd hb (by decide))
    | cons a l => cases h
  rw [if_neg hb] at h
  have hno : w ∈ [b! "BT", b! "ET", b! "BI", b! "ID", b! "EI"] → args = [] := by
    intro hm; exact absurd (by simpa [or_assoc] using hm) hb
  by_cases hf : (w == b! "Tf") = true
  · rw [if_pos hf] at h
    have hf : w = b! "Tf" := by simpa using hf
    split at h
    · rename_i n x
      cases hx : isNumber x with
      | false => rw [hx] at h; cases h
      | true =>
        rw [hx] at h; cases h
        refine ⟨rfl, hno, fun _ => ⟨n, x, rfl, ?_⟩, ?_, ?_⟩
        · cases x <;> first | (cases hx; done) | exact Or.inl ⟨_, rfl⟩ | exact Or.inr ⟨_, _, rfl⟩
        · intro e; rw [hf] at e; exact absurd e (by decide)
        · intro e; rw [hf] at e; exact absurd e (by decide)
    · cases h
  rw [if_neg hf] at h
  have hf : w = b! "Tf" → ∃ n x, args = [.name n, x] ∧ ((∃ i, x = .int i) ∨ ∃ m p, x = .real m p) :=
    fun e => absurd (by simpa using e) hf
  by_cases hj : (w == b! "Tj") = true
  · rw [if_pos hj] at h
    have hj : w = b! "Tj" := by simpa using hj
    have hJ : w = b! "TJ" → ∃ l, args = [.arr l] := by intro e; rw [hj] at e; exact absurd e (by decide)
    split at h
    · rename_i v; cases h; exact ⟨rfl, hno, hf, fun _ => ⟨v, Or.inl rfl⟩, hJ⟩
    · rename_i v; cases h; exact ⟨rfl, hno, hf, fun _ => ⟨v, Or.inr rfl⟩, hJ⟩
    · cases h
  rw [if_neg hj] at h
  have hj : w = b! "Tj" → ∃ v, args = [.lit v] ∨ args = [.hex v] := fun e => absurd (by simpa using e) hj
  by_cases hJ : (w == b! "TJ") = true
  · rw [if_pos hJ] at h
    split at h
    · rename_i l; cases h; exact ⟨rfl, hno, hf, hj, fun _ => ⟨l, rfl⟩⟩
    · cases h
  rw [if_neg hJ] at h
  cases h
  exact ⟨rfl, hno, hf, hj, fun e => absurd (by simpa using e) hJ⟩

theorem readOperation_no_timeout (s : Bytes) : readOperation s ≠ .error .timeout := by
  unfold readOperation
  refine bind_no_timeout (readOperands_no_timeout _ _ _ (by omega)) (fun ⟨args, s'⟩ _ => ?_)
  refine bind_no_timeout (readTokenSkip_no_timeout _ _) (fun ⟨t, r⟩ _ => ?_)
  exact bind_no_timeout (makeOp_no_timeout _ _) (fun _ _ h => by cases h)

/-- The text of a token that is no operand, if it is not empty, stands in the input. -/
theorem readToken_value_infix {dict : List Bytes} {s : Bytes} {t : Token} {r : Bytes} (h : readToken dict s = .ok (t, r))
    (ht : isOperand t.type = false) : t.value = [] ∨ t.value <:+: s := by
  have hb := (skipBlank_suffix false s)
  unfold readToken at h
  split at h
  · cases h; exact Or.inl rfl
  · cases h; exact Or.inl rfl
  · cases h; exact Or.inl rfl
  · cases h; exact Or.inl rfl
  · cases h; exact Or.inl rfl
  · cases h
  · cases h; exact Or.inl rfl
  · cases h; exact Or.inl rfl
  · obtain ⟨a, -, h⟩ := bind_ok h; cases h; cases ht
  · cases h; exact Or.inl rfl
  · cases h; exact Or.inl rfl
  · obtain ⟨a, -, h⟩ := bind_ok h; cases h; cases ht
  · obtain ⟨a, -, h⟩ := bind_ok h; cases h; cases ht
  · rename_i ch rest _ _ _ _ _ _ _ _ _ _ _ _ he
    have h' : readUnknown dict ch rest = (t, r) := by injection h
    rw [he] at hb
    unfold readUnknown at h'
    split at h'
    · dsimp only at h'
      split at h'
      · cases h'; cases ht
      · split at h' <;> (cases h'; cases ht)
    · cases h'
      right
      obtain ⟨pre, hpre⟩ := hb
      refine ⟨pre, rest.dropWhile isRegular, ?_⟩
      rw [← hpre]
      simp

theorem readTokenSkip_value_infix {dict : List Bytes} {s : Bytes} {t : Token} {r : Bytes}
    (h : readTokenSkip dict s = .ok (t, r)) (ht : isOperand t.type = false) : t.value = [] ∨ t.value <:+: s := by
  have key : ∀ f s, readTokenSkipN dict f s = .ok (t, r) → t.value = [] ∨ t.value <:+: s := by
    intro f
    induction f with
    | zero => intro s h; cases h
    | succ f ih =>
      intro s h
      unfold readTokenSkipN at h
      obtain ⟨⟨t', r'⟩, h1, h2⟩ := bind_ok h
      dsimp only at h2
      split at h2
      · rcases ih r' h2 with h3 | h3
        · exact Or.inl h3
        · exact Or.inr (h3.trans (readToken_progress' dict s t' r' h1).1.isInfix)
      · cases h2; exact readToken_value_infix h1 ht
  exact key _ s h

/-- What an operation that was read tells about the input. -/
theorem readOperation_ok {s r : Bytes} {o : COp} (h : readOperation s = .ok (o, r)) :
    r <:+ s ∧ (∀ t q, readTokenSkip contentKeywords s = .ok (t, q) → t.type ≠ .endOfInput → r.length < s.length) ∧
      (o.op = [] ∨ o.op <:+: s) ∧ OperandsFit o.operands o.op := by
  unfold readOperation at h
  obtain ⟨⟨args, s'⟩, h1, h⟩ := bind_ok h
  obtain ⟨⟨t, r'⟩, h2, h⟩ := bind_ok h
  obtain ⟨o', h3, h⟩ := bind_ok h
  cases h
  obtain ⟨g1, g2, t', q', g3, g4⟩ := readOperands_suffix _ _ _ _ _ h1
  rw [h2] at g3; cases g3
  obtain ⟨k1, -, k2⟩ := readTokenSkip_progress h2
  obtain ⟨rfl, hfit⟩ := makeOp_ok h3
  refine ⟨k1.trans g1, ?_, ?_, hfit⟩
  · intro t2 q2 hq hne
    have := k1.length_le
    rcases g2 with rfl | g2
    · rw [h2] at hq; cases hq; exact k2 hne
    · omega
  · rcases readTokenSkip_value_infix h2 g4 with h | h
    · exact Or.inl h
    · exact Or.inr (h.trans g1.isInfix)

theorem readText_no_timeout (f : Nat) (s : Bytes) (acc : List COp) (hf : s.length < f) :
    readText f s acc ≠ .error .timeout := by
  induction f generalizing s acc with
  | zero => omega
  | succ f ih =>
    unfold readText
    refine bind_no_timeout (readTokenSkip_no_timeout _ _) (fun ⟨t, q⟩ ht => ?_)
    refine ite_ne (fun _ => by intro h; cases h) (fun hne => ?_)
    refine bind_no_timeout (readOperation_no_timeout _) (fun ⟨o, r⟩ ho => ?_)
    have hlt := (readOperation_ok ho).2.1 t q ht (by simpa using hne)
    exact ite_ne (fun _ => by intro h; cases h) (fun _ => ih r _ (by omega))

theorem readText_suffix (f : Nat) (s : Bytes) (acc : List COp) (i : Instr) (r : Bytes)
    (h : readText f s acc = .ok (i, r)) : r <:+ s := by
  induction f generalizing s acc with
  | zero => cases h
  | succ f ih =>
    unfold readText at h
    obtain ⟨⟨t, q⟩, ht, h⟩ := bind_ok h
    dsimp only at h
    split at h
    · cases h; exact List.suffix_refl _
    · obtain ⟨⟨o, r'⟩, ho, h⟩ := bind_ok h
      dsimp only at h
      split at h
      · cases h; exact (readOperation_ok ho).1
      · exact (ih r' _ h).trans (readOperation_ok ho).1

theorem readInstruction_no_timeout {s : Bytes} (hs : ¬ b! "BI" <:+: s) : readInstruction s ≠ .error .timeout := by
  unfold readInstruction
  refine bind_no_timeout (readOperation_no_timeout _) (fun ⟨o, r⟩ ho => ?_)
  obtain ⟨h1, h2, h3, -⟩ := readOperation_ok ho
  refine ite_ne (fun hb => ?_) (fun _ => ?_)
  · have hb : o.op = b! "BI" := by simpa using hb
    rw [hb] at h3
    rcases h3 with h3 | h3
    · cases h3
    · exact absurd h3 hs
  · exact ite_ne (fun _ => readText_no_timeout _ _ _ (by omega)) (fun _ => by intro h; cases h)

theorem readInstructionsN_no_timeout (f : Nat) (s : Bytes) (acc : List Instr) (hs : ¬ b! "BI" <:+: s)
    (hf : s.length < f) : readInstructionsN f s acc ≠ .error .timeout := by
  induction f generalizing s acc with
  | zero => omega
  | succ f ih =>
    unfold readInstructionsN
    refine bind_no_timeout (readTokenSkip_no_timeout _ _) (fun ⟨t, q⟩ ht => ?_)
    refine ite_ne (fun _ => by intro h; cases h) (fun hne => ?_)
    refine bind_no_timeout (readInstruction_no_timeout hs) (fun ⟨i, r⟩ hi => ?_)
    unfold readInstruction at hi
    obtain ⟨⟨o, r'⟩, ho, hi⟩ := bind_ok hi
    obtain ⟨h1, h2, h3, -⟩ := readOperation_ok ho
    have hlt := h2 t q ht (by simpa using hne)
    have hsuf : r <:+ r' := by
      dsimp only at hi
      split at hi
      · rename_i hb
        have hb : o.op = b! "BI" := by simpa using hb
        rw [hb] at h3
        rcases h3 with h3 | h3
        · cases h3
        · exact absurd h3 hs
      · split at hi
        · exact readText_suffix _ _ _ _ _ hi
        · cases hi; exact List.suffix_refl _
    have := hsuf.length_le
    exact ih r _ (fun hx => hs (hx.trans (hsuf.trans h1).isInfix)) (by omega)

/-! ### What is read can be written -/

/-- What operands consist of when they have been read. -/
inductive ReadVal : Obj → Prop where
  | null : ReadVal .null
  | bool (b : Bool) : ReadVal (.bool b)
  | int (i : Int) : -9223372036854775808 ≤ i → i ≤ 9223372036854775807 → ReadVal (.int i)
  | real (m : Int) (p : Nat) : ReadVal (.real m p)
  | name (n : Bytes) : ReadVal (.name n)
  | lit (v : Bytes) : ReadVal (.lit v)
  | hex (v : Bytes) : ReadVal (.hex v)
  | arr (l : List Obj) : (∀ o ∈ l, ReadVal o) → ReadVal (.arr l)
  | dict (d : Dict) : SortedKeys d → (∀ x ∈ d, ReadVal x.2) → (∀ x ∈ d, x.2 ≠ .null) → ReadVal (.dict d)

theorem stoll_range {s : Bytes} {i : Int} (h : stoll s = .ok i) :
    -9223372036854775808 ≤ i ∧ i ≤ 9223372036854775807 := by
  unfold stoll at h
  obtain ⟨v, -, h⟩ := bind_ok h
  split at h
  · rename_i hr; cases h; simpa using hr
  · cases h

theorem parseReal_real {s : Bytes} {o : Obj} (h : parseReal s = .ok o) : ∃ m p, o = .real m p := by
  unfold parseReal at h
  split at h <;> (obtain ⟨⟨m, p⟩, -, h⟩ := bind_ok h; cases h; exact ⟨_, _, rfl⟩)

theorem dict_insert_ok {k : Bytes} {v : Obj} {d : Dict} (h : ReadVal (.dict d)) (hv : ReadVal v) (hn : v ≠ .null) :
    ReadVal (.dict (mapInsert k v d)) := by
  cases h with
  | dict _ h1 h2 h3 =>
    refine .dict _ (mapInsert_sorted h1) ?_ ?_
    · intro x hx
      rcases mapInsert_mem hx with rfl | hx
      · exact hv
      · exact h2 x hx
    · intro x hx
      rcases mapInsert_mem hx with rfl | hx
      · exact hn
      · exact h3 x hx

theorem readContent_val (f : Nat) :
    (∀ s o r, readContent f s = .ok (o, r) → ReadVal o) ∧
    (∀ s acc o r, (∀ x ∈ acc, ReadVal x) → readContentArr f s acc = .ok (o, r) → ReadVal o) ∧
    (∀ s acc d r, ReadVal (.dict acc) → readContentDict f s acc = .ok (d, r) → ReadVal (.dict d)) := by
  induction f with
  | zero =>
    refine ⟨?_, ?_, ?_⟩
    · intro s o r h; unfold readContent at h; cases h
    · intro s acc o r _ h; unfold readContentArr at h; cases h
    · intro s acc d r _ h; unfold readContentDict at h; cases h
  | succ f ih =>
    obtain ⟨ih1, ih2, ih3⟩ := ih
    refine ⟨?_, ?_, ?_⟩
    · intro s o r h
      unfold readContent at h
      obtain ⟨⟨t, r1⟩, ht, h⟩ := bind_ok h
      dsimp only at h
      split at h
      · obtain ⟨⟨d, r'⟩, hd, h⟩ := bind_ok h
        cases h
        exact ih3 r1 [] d _ (.dict [] List.Pairwise.nil (by simp) (by simp)) hd
      · obtain ⟨v, hv, h⟩ := bind_ok h
        cases h
        exact .int v (stoll_range hv).1 (stoll_range hv).2
      · exact ih2 r1 [] o r (by simp) h
      · cases h; exact .name _
      · obtain ⟨v, -, h⟩ := bind_ok h; cases h; exact .hex _
      · obtain ⟨v, -, h⟩ := bind_ok h; cases h; exact .lit _
      · obtain ⟨v, hv, h⟩ := bind_ok h
        cases h
        obtain ⟨m, p, rfl⟩ := parseReal_real hv
        exact .real m p
      · split at h
        · cases h; exact .bool _
        · split at h
          · cases h; exact .bool _
          · split at h
            · cases h; exact .null
            · cases h
      · cases h
    · intro s acc o r hacc h
      unfold readContentArr at h
      obtain ⟨⟨t, r1⟩, ht, h⟩ := bind_ok h
      dsimp only at h
      split at h
      · cases h; exact .arr _ hacc
      · obtain ⟨⟨o', r'⟩, ho, h⟩ := bind_ok h
        refine ih2 r' _ o r ?_ h
        intro x hx
        rcases List.mem_append.mp hx with hx | hx
        · exact hacc x hx
        · simp at hx; rw [hx]; exact ih1 s o' r' ho
    · intro s acc d r hacc h
      unfold readContentDict at h
      obtain ⟨⟨t, r0⟩, ht, h⟩ := bind_ok h
      dsimp only at h
      split at h
      · cases h; exact hacc
      · obtain ⟨⟨k, r1⟩, hk, h⟩ := bind_ok h
        obtain ⟨⟨v, r2⟩, hv, h⟩ := bind_ok h
        have hval := ih1 _ v r2 hv
        dsimp only at h
        by_cases hnn : v = .null
        · subst hnn; exact ih3 _ _ _ _ hacc h
        · split at h
          · exact ih3 _ _ _ _ hacc h
          · split at h
            · exact ih3 _ _ _ _ hacc h
            · exact ih3 _ _ _ _ (dict_insert_ok hacc hval hnn) h
          · exact ih3 _ _ _ _ hacc h

theorem readOperands_val (f : Nat) (s : Bytes) (acc args : List Obj) (r : Bytes) (hacc : ∀ x ∈ acc, ReadVal x)
    (h : readOperands f s acc = .ok (args, r)) : ∀ x ∈ args, ReadVal x := by
  induction f generalizing s acc with
  | zero => cases h
  | succ f ih =>
    unfold readOperands at h
    obtain ⟨⟨t, r1⟩, ht, h⟩ := bind_ok h
    dsimp only at h
    split at h
    · obtain ⟨⟨o, r2⟩, ho, h⟩ := bind_ok h
      refine ih r2 _ ?_ h
      intro x hx
      rcases List.mem_append.mp hx with hx | hx
      · exact hacc x hx
      · simp at hx; rw [hx]; exact (readContent_val _).1 s o r2 ho
    · cases h; exact hacc

theorem readOperation_val {s r : Bytes} {o : COp} (h : readOperation s = .ok (o, r)) : ∀ x ∈ o.operands, ReadVal x := by
  unfold readOperation at h
  obtain ⟨⟨args, s'⟩, h1, h⟩ := bind_ok h
  obtain ⟨⟨t, r'⟩, h2, h⟩ := bind_ok h
  obtain ⟨o', h3, h⟩ := bind_ok h
  cases h
  obtain ⟨rfl, -⟩ := makeOp_ok h3
  exact readOperands_val _ _ _ _ _ (by simp) h1

theorem readVal_savable {o : Obj} (h : ReadVal o) (hf : FracReals o) : Savable o ∧ NoRef o := by
  induction h with
  | null => exact ⟨.null, .simple _ trivial⟩
  | bool b => exact ⟨.bool b, .simple _ trivial⟩
  | int i h1 h2 => exact ⟨.int i h1 h2, .simple _ trivial⟩
  | real m p =>
    cases hf with
    | real _ _ hp => exact ⟨.real m p hp, .simple _ trivial⟩
    | other _ h => exact absurd h (by simp [NumberOrPart])
  | name n => exact ⟨.name n, .simple _ trivial⟩
  | lit v => exact ⟨.lit v, .simple _ trivial⟩
  | hex v => exact ⟨.hex v, .simple _ trivial⟩
  | arr l _ ih =>
    cases hf with
    | arr _ hl => exact ⟨.arr l (fun o ho => (ih o ho (hl o ho)).1), .arr l (fun o ho => (ih o ho (hl o ho)).2)⟩
    | other _ h => exact absurd h (by simp [NumberOrPart])
  | dict d h1 _ h3 ih =>
    cases hf with
    | dict _ hl =>
      exact ⟨.dict d h1 (fun x hx => (ih x hx (hl x hx)).1) h3, .dict d (fun x hx => (ih x hx (hl x hx)).2)⟩
    | other _ h => exact absurd h (by simp [NumberOrPart])

/-- What is known of an operation that was read. -/
def ReadOp (o : COp) : Prop := (∀ x ∈ o.operands, ReadVal x) ∧ OperandsFit o.operands o.op

theorem readOperation_readOp {s r : Bytes} {o : COp} (h : readOperation s = .ok (o, r)) : ReadOp o :=
  ⟨readOperation_val h, (readOperation_ok h).2.2.2⟩

/-- What is known of an instruction that was read, images aside. -/
def ReadInstr : Instr → Prop
  | .op o => ReadOp o ∧ o.op ≠ b! "BT" ∧ o.op ≠ b! "BI"
  | .text ops => ∀ o ∈ ops, ReadOp o ∧ o.op ≠ b! "ET"
  | .image _ _ => True

theorem readText_readInstr (f : Nat) (s : Bytes) (acc : List COp) (i : Instr) (r : Bytes)
    (hacc : ∀ o ∈ acc, ReadOp o ∧ o.op ≠ b! "ET") (h : readText f s acc = .ok (i, r)) : ReadInstr i := by
  induction f generalizing s acc with
  | zero => cases h
  | succ f ih =>
    unfold readText at h
    obtain ⟨⟨t, q⟩, ht, h⟩ := bind_ok h
    dsimp only at h
    split at h
    · cases h; exact hacc
    · obtain ⟨⟨o, r'⟩, ho, h⟩ := bind_ok h
      dsimp only at h
      split at h
      · cases h; exact hacc
      · rename_i hne
        refine ih r' _ ?_ h
        intro x hx
        rcases List.mem_append.mp hx with hx | hx
        · exact hacc x hx
        · simp at hx; subst hx; exact ⟨readOperation_readOp ho, by simpa using hne⟩

theorem readInstruction_readInstr {s r : Bytes} {i : Instr} (h : readInstruction s = .ok (i, r)) : ReadInstr i := by
  unfold readInstruction at h
  obtain ⟨⟨o, r'⟩, ho, h⟩ := bind_ok h
  dsimp only at h
  split at h
  · unfold readImage at h
    obtain ⟨_, -, h⟩ := bind_ok h
    obtain ⟨_, -, h⟩ := bind_ok h
    obtain ⟨_, -, h⟩ := bind_ok h
    cases h; trivial
  · rename_i h1
    split at h
    · exact readText_readInstr _ _ _ _ _ (by simp) h
    · rename_i h2
      cases h
      exact ⟨readOperation_readOp ho, by simpa using h2, by simpa using h1⟩

theorem readInstructionsN_readInstr (f : Nat) (s : Bytes) (acc is : List Instr) (hacc : ∀ i ∈ acc, ReadInstr i)
    (h : readInstructionsN f s acc = .ok is) : ∀ i ∈ is, ReadInstr i := by
  induction f generalizing s acc with
  | zero => cases h
  | succ f ih =>
    unfold readInstructionsN at h
    obtain ⟨⟨t, q⟩, ht, h⟩ := bind_ok h
    dsimp only at h
    split at h
    · cases h; exact hacc
    · obtain ⟨⟨i, r⟩, hi, h⟩ := bind_ok h
      refine ih r _ ?_ h
      intro x hx
      rcases List.mem_append.mp hx with hx | hx
      · exact hacc x hx
      · simp at hx; subst hx; exact readInstruction_readInstr hi

/-! ### The data of inline images -/

/-- The bytes that have been read and not yet stored. -/
def ImgStage.held : ImgStage → Bytes
  | .plain => []
  | .ws w => [w]
  | .e w => [w, 0x45]
  | .ei w => [w, 0x45, 0x49]

/-- The stored character is white-space. -/
def ImgStage.Ok : ImgStage → Prop
  | .plain => True
  | .ws w | .e w | .ei w => isWhiteSpace w = true

theorem readImageData_split (st : ImgStage) (s acc data r : Bytes) (hst : st.Ok)
    (h : readImageData st s acc = .ok (data, r)) :
    ∃ w1 w2, isWhiteSpace w1 = true ∧ isWhiteSpace w2 = true ∧
      acc ++ st.held ++ s = data ++ w1 :: 0x45 :: 0x49 :: w2 :: r := by
  induction s generalizing st acc with
  | nil => cases st <;> cases h
  | cons c rest ih =>
    cases st with
    | plain =>
      rw [readImageData] at h
      split at h
      · rename_i hc
        obtain ⟨w1, w2, g1, g2, g3⟩ := ih (.ws c) acc hc h
        exact ⟨w1, w2, g1, g2, by rw [← g3]; simp [ImgStage.held]⟩
      · obtain ⟨w1, w2, g1, g2, g3⟩ := ih .plain _ trivial h
        exact ⟨w1, w2, g1, g2, by rw [← g3]; simp [ImgStage.held]⟩
    | ws w =>
      rw [readImageData] at h
      split at h
      · rename_i hc
        have hc : c = 0x45 := by simpa using hc
        subst hc
        obtain ⟨w1, w2, g1, g2, g3⟩ := ih (.e w) acc hst h
        exact ⟨w1, w2, g1, g2, by rw [← g3]; simp [ImgStage.held]⟩
      · split at h
        · rename_i hc
          obtain ⟨w1, w2, g1, g2, g3⟩ := ih (.ws c) _ hc h
          exact ⟨w1, w2, g1, g2, by rw [← g3]; simp [ImgStage.held]⟩
        · obtain ⟨w1, w2, g1, g2, g3⟩ := ih .plain _ trivial h
          exact ⟨w1, w2, g1, g2, by rw [← g3]; simp [ImgStage.held]⟩
    | e w =>
      rw [readImageData] at h
      split at h
      · rename_i hc
        have hc : c = 0x49 := by simpa using hc
        subst hc
        obtain ⟨w1, w2, g1, g2, g3⟩ := ih (.ei w) acc hst h
        exact ⟨w1, w2, g1, g2, by rw [← g3]; simp [ImgStage.held]⟩
      · obtain ⟨w1, w2, g1, g2, g3⟩ := ih .plain _ trivial h
        exact ⟨w1, w2, g1, g2, by rw [← g3]; simp [ImgStage.held]⟩
    | ei w =>
      rw [readImageData] at h
      split at h
      · rename_i hc
        cases h
        exact ⟨w, c, hst, hc, by simp [ImgStage.held]⟩
      · obtain ⟨w1, w2, g1, g2, g3⟩ := ih .plain _ trivial h
        exact ⟨w1, w2, g1, g2, by rw [← g3]; simp [ImgStage.held]⟩

/-- The accumulated instructions come first. -/
theorem readInstructionsN_prefix (f : Nat) (s : Bytes) (acc is : List Instr) (h : readInstructionsN f s acc = .ok is) :
    acc <+: is := by
  induction f generalizing s acc with
  | zero => cases h
  | succ f ih =>
    unfold readInstructionsN at h
    obtain ⟨⟨t, q⟩, ht, h⟩ := bind_ok h
    dsimp only at h
    split at h
    · cases h; exact List.prefix_refl _
    · obtain ⟨⟨i, r⟩, hi, h⟩ := bind_ok h
      exact (List.prefix_append acc [i]).trans (ih r _ h)

/-- What is read first of a written image: data read from the text behind `ID`. -/
theorem image_first {d : Dict} {data : Bytes} {post is : List Instr} {i : Instr} (hd : SortedKeys d)
    (hv : ∀ x ∈ d, Savable x.2 ∧ NoRef x.2 ∧ x.2 ≠ .null)
    (h : readInstructions (writeInstructions (.image d data :: post)) = .ok (i :: is)) :
    ∃ data', i = .image d data' ∧ ∃ r, readImageData .plain
      (0x0A :: (data ++ 0x0A :: (b! "EI" ++ 0x0A :: writeInstructions post))) [] = .ok (data', r) := by
  obtain ⟨tail, htail⟩ : ∃ tail, 0x0A :: (data ++ 0x0A :: (b! "EI" ++ 0x0A :: writeInstructions post)) = 0x0A :: tail :=
    ⟨_, rfl⟩
  rw [htail]
  have htext : writeInstructions (.image d data :: post) =
      b! "BI" ++ (0x0A :: (writeImageDict d ++ b! "ID") ++ 0x0A :: tail) := by
    rw [← htail]
    simp [writeInstructions, writeInstr]
  rw [htext] at h
  have hent := writeImageDict_text d hv
  have hr : EndsToken (0x0A :: tail) := by intro c hc; cases hc; decide
  have hru : EndsToken (0x0A :: (writeImageDict d ++ b! "ID") ++ 0x0A :: tail) := by intro c hc; cases hc; decide
  have hop : readOperation (b! "BI" ++ (0x0A :: (writeImageDict d ++ b! "ID") ++ 0x0A :: tail)) =
      .ok (⟨[], b! "BI"⟩, 0x0A :: (writeImageDict d ++ b! "ID") ++ 0x0A :: tail) :=
    readOperation_text (sep := []) (.word _ word_BI) (fits_nil (by decide) (by decide) (by decide)) word_BI .nil hru
  obtain ⟨sep', hs', hdict⟩ := readImageDict_text hent (0x0A :: tail) hr []
    ((0x0A :: (writeImageDict d ++ b! "ID") ++ 0x0A :: tail).length + 1) (by simp) List.Pairwise.nil
    (sortedKeys_nodup hd) (fun _ _ => rfl)
  have hid : readOperation (sep' ++ (b! "ID" ++ 0x0A :: tail)) = .ok (⟨[], b! "ID"⟩, 0x0A :: tail) :=
    readOperation_text (.word _ word_ID) (fits_nil (by decide) (by decide) (by decide)) word_ID hs' hr
  have hbd : buildDict [] d = d := by
    obtain ⟨b1, b2⟩ := buildDict_spec d [] List.Pairwise.nil
    apply sorted_ext b1 hd
    intro k; rw [b2 k, ← valueAt_eq k d, firstValue_noNull d (fun x hx => (hv x hx).2.2) k]; rfl
  unfold readInstructions at h
  unfold readInstructionsN at h
  obtain ⟨⟨t, q⟩, ht, h⟩ := bind_ok h
  dsimp only at h
  split at h
  · cases h
  · obtain ⟨⟨j, r⟩, hj, h⟩ := bind_ok h
    have hpre := readInstructionsN_prefix _ _ _ _ h
    unfold readInstruction at hj
    rw [hop] at hj
    change readImage _ = _ at hj
    unfold readImage at hj
    rw [hdict, ok_bind] at hj
    change (readOperation (sep' ++ (b! "ID" ++ 0x0A :: tail)) >>= _) = _ at hj
    rw [hid, ok_bind] at hj
    obtain ⟨⟨data', r'⟩, hdat, hj⟩ := bind_ok hj
    cases hj
    obtain ⟨u, hu⟩ := hpre
    rw [hbd] at hu
    cases hu
    exact ⟨data', rfl, _, hdat⟩

/-! ### Several streams -/

theorem getLast?_append_ne {a b : Bytes} (hb : b ≠ []) : (a ++ b).getLast? = b.getLast? := by
  rw [← List.dropLast_concat_getLast hb, ← List.append_assoc, List.getLast?_concat, List.getLast?_concat]

theorem contentText_sep {is : List Instr} {s sep : Bytes} (hs : Sep sep) (h : ContentText is s) :
    ContentText is (sep ++ s) := by
  cases h with
  | nil sep' h' => exact .nil _ (sep_append hs h')
  | op args w is sep' t s h1 h2 h3 h4 h5 h6 h7 =>
    have := ContentText.op args w is (sep ++ sep') t s (sep_append hs h1) h2 h3 h4 h5 h6 h7
    simpa using this
  | text ops is sep' u s h1 h2 h3 h4 h5 =>
    have := ContentText.text ops is (sep ++ sep') u s (sep_append hs h1) h2 h3 h4 h5
    simpa using this
  | image es d data is sep' u c1 c2 s h1 h2 h3 h4 h5 h6 h7 h8 h9 h10 h11 =>
    have := ContentText.image es d data is (sep ++ sep') u c1 c2 s (sep_append hs h1) h2 h3 h4 h5 h6 h7 h8 h9 h10 h11
    simpa using this

theorem endsToken_append {s t : Bytes} (hs : EndsToken s) (ht : s = [] → EndsToken t) : EndsToken (s ++ t) := by
  cases s with
  | nil => exact ht rfl
  | cons c r => intro d hd; exact hs d (by simpa using hd)

theorem opText_last {args : List Obj} {w s : Bytes} (h : OpText args w s) : ∃ p c, s = p ++ [c] ∧ c ∉ whiteSpace := by
  induction h with
  | word w hw =>
    obtain ⟨h1, h2, -⟩ := hw
    refine ⟨w.dropLast, w.getLast h1, (List.dropLast_concat_getLast h1).symm, ?_⟩
    intro hm
    exact h2 _ (List.getLast_mem h1) (List.mem_append_left _ hm)
  | operand o os w t sep s _ _ _ _ ih =>
    obtain ⟨p, c, rfl, hc⟩ := ih
    exact ⟨t ++ sep ++ p, c, by simp, hc⟩

theorem textBody_last {ops : List COp} {s : Bytes} (h : TextBody ops s) : ∃ p, s = p ++ [0x54] := by
  induction h with
  | done sep _ => exact ⟨sep ++ [0x45], by simp⟩
  | cons args w os sep t s _ _ _ _ _ _ ih =>
    obtain ⟨p, rfl⟩ := ih
    exact ⟨sep ++ t ++ p, by simp⟩

theorem contentText_nil {is : List Instr} (h : ContentText is []) : is = [] := by
  generalize he : ([] : Bytes) = s at h
  cases h with
  | nil sep h' => rfl
  | op args w is sep' t s h1 h2 h3 h4 h5 h6 h7 =>
    obtain ⟨p, d, rfl, -⟩ := opText_last h2
    simp at he
  | text ops is sep' u s h1 h2 h3 h4 h5 => simp at he
  | image es d data is sep' u c1 c2 s h1 h2 h3 h4 h5 h6 h7 h8 h9 h10 h11 => simp at he

theorem contentText_append {is js : List Instr} {s t : Bytes} (h : ContentText is s) (hj : ContentText js t)
    (hp : EndsToken t ∨ ∃ c ∈ s.getLast?, c ∈ whiteSpace) : ContentText (is ++ js) (s ++ t) := by
  induction h with
  | nil sep hs => exact contentText_sep hs hj
  | op args w is sep u s h1 h2 h3 h4 h5 h6 h7 ih =>
    have hend : EndsToken (s ++ t) := endsToken_append h6 (fun e => by
      subst e
      rcases hp with hp | ⟨c, hc, hw⟩
      · exact hp
      · obtain ⟨p, d, rfl, hd⟩ := opText_last h2
        rw [List.append_nil, ← List.append_assoc, List.getLast?_concat] at hc
        cases hc; exact absurd hw hd)
    have hp' : s ≠ [] → (EndsToken t ∨ ∃ c ∈ s.getLast?, c ∈ whiteSpace) := fun hne => by
      rcases hp with hp | ⟨c, hc, hw⟩
      · exact Or.inl hp
      · rw [getLast?_append_ne hne] at hc
        exact Or.inr ⟨c, hc, hw⟩
    have hrest : ContentText (is ++ js) (s ++ t) := by
      by_cases hne : s = []
      · subst hne
        exact ih (Or.inl (by simpa using hend))
      · exact ih (hp' hne)
    have := ContentText.op args w (is ++ js) sep u (s ++ t) h1 h2 h3 h4 h5 hend hrest
    simpa using this
  | text ops is sep u s h1 h2 h3 h4 h5 ih =>
    have hend : EndsToken (s ++ t) := endsToken_append h4 (fun e => by
      subst e
      rcases hp with hp | ⟨c, hc, hw⟩
      · exact hp
      · obtain ⟨p, rfl⟩ := textBody_last h2
        rw [List.append_nil, ← List.append_assoc, List.getLast?_concat] at hc
        cases hc; exact absurd hw (by decide))
    have hrest : ContentText (is ++ js) (s ++ t) := by
      by_cases hne : s = []
      · subst hne
        exact ih (Or.inl (by simpa using hend))
      · refine ih ?_
        rcases hp with hp | ⟨c, hc, hw⟩
        · exact Or.inl hp
        · rw [getLast?_append_ne hne] at hc
          exact Or.inr ⟨c, hc, hw⟩
    have := ContentText.text ops (is ++ js) sep u (s ++ t) h1 h2 h3 hend hrest
    simpa using this
  | image es d data is sep u c1 c2 s h1 h2 h3 h4 h5 h6 h7 h8 h9 h10 h11 ih =>
    have hrest : ContentText (is ++ js) (s ++ t) := by
      by_cases hne : s = []
      · subst hne
        rw [contentText_nil h11]
        exact hj
      · refine ih ?_
        rcases hp with hp | ⟨c, hc, hw⟩
        · exact Or.inl hp
        · rw [List.append_cons, getLast?_append_ne hne] at hc
          exact Or.inr ⟨c, hc, hw⟩
    have := ContentText.image es d data (is ++ js) sep u c1 c2 (s ++ t) h1 h2 h3 h4 h5 h6 h7 h8 h9 h10 hrest
    simpa using this

end VPdf
