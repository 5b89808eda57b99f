import Verif.Lemmas.ParseMain
/-
  What the writer emits denotes the object written.
-/
namespace VPdf
open Spec

theorem decDigit_facts (d : Nat) (h : d < 10) : IsDigit (decDigit d) ∧ (decDigit d).toNat - 48 = d := by
  have : ∀ d : Fin 10, (48 ≤ (decDigit d).toNat ∧ (decDigit d).toNat ≤ 57) ∧ (decDigit d).toNat - 48 = d := by decide
  exact this ⟨d, h⟩

theorem digitsVal_append (a b : Bytes) (x : Nat) :
    (a ++ b).foldl (fun a c => a * 10 + (c.toNat - 48)) x =
      b.foldl (fun a c => a * 10 + (c.toNat - 48)) (a.foldl (fun a c => a * 10 + (c.toNat - 48)) x) :=
  List.foldl_append

theorem foldl_digits_from (b : Bytes) (x : Nat) :
    b.foldl (fun a c => a * 10 + (c.toNat - 48)) x = x * 10 ^ b.length + digitsVal b := by
  induction b generalizing x with
  | nil => simp [digitsVal]
  | cons c b ih =>
    rw [List.foldl_cons, ih]
    unfold digitsVal
    rw [List.foldl_cons, ih]
    simp only [List.length_cons, Nat.zero_mul, Nat.zero_add, Nat.pow_succ]
    rw [ih, Nat.add_mul, Nat.mul_assoc, Nat.mul_comm 10, Nat.add_assoc]

theorem natDecAux_facts (f n : Nat) (acc : Bytes) (hf : n < f) :
    ∃ ds, natDecAux f n acc = ds ++ acc ∧ ds ≠ [] ∧ (∀ c ∈ ds, IsDigit c) ∧ digitsVal ds = n := by
  induction f generalizing n acc with
  | zero => omega
  | succ f ih =>
    unfold natDecAux
    obtain ⟨h1, h2⟩ := decDigit_facts (n % 10) (Nat.mod_lt _ (by decide))
    split
    · rename_i hz
      refine ⟨[decDigit (n % 10)], rfl, by simp, by simpa using h1, ?_⟩
      show 0 * 10 + ((decDigit (n % 10)).toNat - 48) = n
      rw [h2]; omega
    · rename_i hz
      obtain ⟨ds, e, ne, hd, hv⟩ := ih (n / 10) (decDigit (n % 10) :: acc) (by omega)
      refine ⟨ds ++ [decDigit (n % 10)], by rw [e]; simp, by simp, ?_, ?_⟩
      · intro c hc
        simp at hc
        rcases hc with hc | rfl
        · exact hd c hc
        · exact h1
      · have : digitsVal (ds ++ [decDigit (n % 10)]) = digitsVal ds * 10 + ((decDigit (n % 10)).toNat - 48) := by
          unfold digitsVal; rw [digitsVal_append]; rfl
        rw [this, hv, h2]; omega

theorem natDec_facts (n : Nat) : natDec n ≠ [] ∧ (∀ c ∈ natDec n, IsDigit c) ∧ digitsVal (natDec n) = n := by
  obtain ⟨ds, e, ne, hd, hv⟩ := natDecAux_facts (n + 1) n [] (by omega)
  have : natDec n = ds := by rw [natDec, e, List.append_nil]
  rw [this]; exact ⟨ne, hd, hv⟩

theorem natDec_text (n : Nat) : IntText n (natDec n) := by
  obtain ⟨h1, h2, h3⟩ := natDec_facts n
  exact ⟨natDec n, h1, h2, Or.inl ⟨rfl, by rw [h3]⟩⟩

theorem intDec_text (i : Int) : IntText i (intDec i) := by
  obtain ⟨h1, h2, h3⟩ := natDec_facts i.natAbs
  unfold intDec
  split
  · exact ⟨natDec i.natAbs, h1, h2, Or.inr (Or.inr ⟨rfl, by rw [h3]; omega⟩)⟩
  · exact ⟨natDec i.natAbs, h1, h2, Or.inl ⟨rfl, by rw [h3]; omega⟩⟩

theorem fracDigits_facts (p n : Nat) (acc : Bytes) :
    ∃ ds, fracDigits p n acc = ds ++ acc ∧ ds.length = p ∧ (∀ c ∈ ds, IsDigit c) ∧ digitsVal ds = n % 10 ^ p := by
  induction p generalizing n acc with
  | zero => exact ⟨[], rfl, rfl, by simp, by simp [digitsVal, Nat.mod_one]⟩
  | succ p ih =>
    obtain ⟨h1, h2⟩ := decDigit_facts (n % 10) (Nat.mod_lt _ (by decide))
    obtain ⟨ds, e, hl, hd, hv⟩ := ih (n / 10) (decDigit (n % 10) :: acc)
    refine ⟨ds ++ [decDigit (n % 10)], by rw [fracDigits, e]; simp, by simp [hl], ?_, ?_⟩
    · intro c hc
      simp at hc
      rcases hc with hc | rfl
      · exact hd c hc
      · exact h1
    · have : digitsVal (ds ++ [decDigit (n % 10)]) = digitsVal ds * 10 + ((decDigit (n % 10)).toNat - 48) := by
        unfold digitsVal; rw [digitsVal_append]; rfl
      rw [this, hv, h2, Nat.pow_succ, Nat.mul_comm (10 ^ p) 10, Nat.mod_mul]; omega

theorem writeReal_text (m : Int) (p : Nat) : RealText m p (writeReal m p) := by
  obtain ⟨h1, h2, h3⟩ := natDec_facts (m.natAbs / 10 ^ p)
  obtain ⟨ds, e, hl, hd, hv⟩ := fracDigits_facts p m.natAbs []
  rw [List.append_nil] at e
  have hval : digitsVal (natDec (m.natAbs / 10 ^ p) ++ ds) = m.natAbs := by
    unfold digitsVal
    rw [digitsVal_append, foldl_digits_from]
    show digitsVal _ * _ + _ = _
    rw [h3, hl, hv, Nat.mul_comm]
    exact Nat.div_add_mod _ _
  refine ⟨natDec (m.natAbs / 10 ^ p), ds, by simp [h1], ?_, hl.symm, ?_⟩
  · intro c hc
    simp at hc
    rcases hc with hc | hc
    · exact h2 c hc
    · exact hd c hc
  · unfold writeReal
    simp only []
    rw [e, hval]
    by_cases hm : m < 0
    · exact Or.inr (Or.inr ⟨by simp [hm], by omega⟩)
    · exact Or.inl ⟨by simp [hm], by omega⟩

theorem encodeName_body (n : Bytes) : NameBody n (encodeName n) := by
  induction n with
  | nil => exact .nil
  | cons c n ih =>
    have e : encodeName (c :: n) = encodeNameByte c ++ encodeName n := by simp [encodeName]
    rw [e]
    have h : ∀ c : Byte,
      (encodeNameByte c = [c] ∧ c ∉ whiteSpace ++ delimiters ∧ c ≠ 35) ∨
      (encodeNameByte c = 0x23 :: hex2 c ∧ hexVal (hexDigit (c.toNat / 16)) = some (c.toNat / 16) ∧
        hexVal (hexDigit (c.toNat % 16)) = some (c.toNat % 16)) := by
      apply forall_byte; decide +kernel
    rcases h c with ⟨h1, h2, h3⟩ | ⟨h1, h2, h3⟩
    · rw [h1]; exact .regular c n _ h2 h3 ih
    · rw [h1]
      have hc : UInt8.ofNat (16 * (c.toNat / 16) + c.toNat % 16) = c := by
        rw [Nat.div_add_mod]; simp
      have := NameBody.code _ _ _ _ n _ h2 h3 ih
      rw [hc] at this
      exact this

theorem encodeLiteral_body (v : Bytes) : LitBody 0 v (v.flatMap encodeLiteralByte) := by
  induction v with
  | nil => exact .nil
  | cons c v ih =>
    rw [List.flatMap_cons]
    have h : ∀ c : Byte,
      (encodeLiteralByte c = [c] ∧ c ∉ [40, 41, 92, 13]) ∨
      (∃ x ∈ escapes, encodeLiteralByte c = [92, x.1] ∧ c = x.2) ∨
      (encodeLiteralByte c = [92, decDigit (c.toNat / 64), decDigit (c.toNat / 8 % 8), decDigit (c.toNat % 8)] ∧
        octVal (decDigit (c.toNat / 64)) = some (c.toNat / 64) ∧
        octVal (decDigit (c.toNat / 8 % 8)) = some (c.toNat / 8 % 8) ∧
        octVal (decDigit (c.toNat % 8)) = some (c.toNat % 8)) := by
      apply forall_byte; decide +kernel
    rcases h c with ⟨h1, h2⟩ | ⟨⟨x, c'⟩, hx, h1, h2⟩ | ⟨h1, h2, h3, h4⟩
    · rw [h1]; exact .plain 0 c v _ h2 ih
    · rw [h1]
      simp only at h2
      subst h2
      exact .escape 0 x c v _ hx ih
    · rw [h1]
      have hb := c.toNat_lt
      have hval : 64 * (c.toNat / 64) + 8 * (c.toNat / 8 % 8) + c.toNat % 8 = c.toNat := by omega
      have hc : UInt8.ofNat (64 * (c.toNat / 64) + 8 * (c.toNat / 8 % 8) + c.toNat % 8) = c := by
        rw [hval]; simp
      have := LitBody.octal3 0 _ _ _ _ _ _ v _ h2 h3 h4 (by omega) ih
      rw [hc] at this
      exact this

theorem hexDigitsOf_hex2 (v : Bytes) : hexDigitsOf (v.flatMap hex2) = v.flatMap hex2 := by
  unfold hexDigitsOf
  rw [List.filter_eq_self]
  intro d hd
  obtain ⟨c, -, hc⟩ := List.mem_flatMap.mp hd
  have : ∀ c : Byte, ∀ d ∈ hex2 c, decide (d ∉ whiteSpace) = true := by apply forall_byte; decide +kernel
  exact this c d hc

theorem hexBytes_hex2 (v : Bytes) : hexBytes (hexDigitsOf (v.flatMap hex2)) = some v := by
  rw [hexDigitsOf_hex2]
  induction v with
  | nil => rfl
  | cons c v ih =>
    rw [List.flatMap_cons]
    have h : ∀ c : Byte, hexVal (hexDigit (c.toNat / 16)) = some (c.toNat / 16) ∧
        hexVal (hexDigit (c.toNat % 16)) = some (c.toNat % 16) ∧
        UInt8.ofNat (16 * (c.toNat / 16) + c.toNat % 16) = c := by apply forall_byte; decide +kernel
    obtain ⟨h1, h2, h3⟩ := h c
    simp only [hex2, List.cons_append, List.nil_append, hexBytes, h1, h2, ih]
    show some (UInt8.ofNat (16 * (c.toNat / 16) + c.toNat % 16) :: v) = _
    rw [h3]

theorem firstValue_noNull (d : Dict) (h : ∀ x ∈ d, x.2 ≠ .null) (k : Bytes) : valueAt k d = firstValue k d := by
  induction d with
  | nil => rfl
  | cons a d ih =>
    obtain ⟨k', o⟩ := a
    have ho : o ≠ .null := h (k', o) (by simp)
    have := ih (fun x hx => h x (by simp [hx]))
    have e : firstValue k ((k', o) :: d) = if k = k' then some o else firstValue k d := by
      cases o <;> first | rfl | exact absurd rfl ho
    rw [e, valueAt, this]

theorem sep_space : Sep [0x20] := .ws 32 [] (by decide) .nil

theorem ends_space (x : Bytes) : EndsToken (0x20 :: x) := by intro d hd; simp at hd; subst hd; decide

theorem writeItems_denotes (l : List Obj) (h : ∀ o ∈ l, Denotes o (writeObj o)) (sep : Bytes) (hs : Sep sep) :
    Items l (sep ++ writeItems l) := by
  induction l generalizing sep with
  | nil => simpa [writeItems] using Items.nil sep hs
  | cons o os ih =>
    cases os with
    | nil =>
      have := Items.cons o [] sep (writeObj o) [] hs (h o (by simp)) (Items.nil [] .nil)
        (Or.inr (by intro d hd; simp at hd))
      simpa [writeItems] using this
    | cons o' os' =>
      have hi := ih (fun x hx => h x (by simp at hx ⊢; exact Or.inr hx)) [0x20] sep_space
      have := Items.cons o (o' :: os') sep (writeObj o) _ hs (h o (by simp)) hi (Or.inr (ends_space _))
      have e : writeItems (o :: o' :: os') = writeObj o ++ 0x20 :: writeItems (o' :: os') := by
        rw [writeItems]
      rw [e]
      simpa using this

theorem writeEntries_denotes (d : Dict) (h : ∀ x ∈ d, Denotes x.2 (writeObj x.2)) (sep : Bytes) (hs : Sep sep) :
    Entries d (sep ++ writeEntries d) := by
  induction d generalizing sep with
  | nil => simpa [writeEntries] using Entries.nil sep hs
  | cons a es ih =>
    obtain ⟨k, o⟩ := a
    have ho := h (k, o) (by simp)
    cases es with
    | nil =>
      have := Entries.cons k o [] sep (encodeName k) [0x20] (writeObj o) [] hs (encodeName_body k) sep_space
        (ends_space _) ho (Entries.nil [] .nil) (Or.inr (by intro d hd; simp at hd))
      simpa [writeEntries, writeName] using this
    | cons a' es' =>
      have hi := ih (fun x hx => h x (by simp at hx ⊢; exact Or.inr hx)) [0x20] sep_space
      have := Entries.cons k o (a' :: es') sep (encodeName k) [0x20] (writeObj o) _ hs (encodeName_body k) sep_space
        (ends_space _) ho hi (Or.inr (ends_space _))
      have e : writeEntries ((k, o) :: a' :: es') =
          writeName k ++ 0x20 :: (writeObj o ++ 0x20 :: writeEntries (a' :: es')) := by rw [writeEntries]
      rw [e]
      simpa [writeName] using this

/-- The text the writer emits denotes the object. -/
theorem writeObj_denotes {o : Obj} (h : Savable o) : Denotes o (writeObj o) := by
  induction h with
  | null => exact .null
  | bool b => cases b <;> first | exact .bfalse | exact .btrue
  | int i h1 h2 => exact .int i _ (intDec_text i) h1 h2
  | real m p _ => exact .real m p _ (writeReal_text m p)
  | name n => exact .name n _ (encodeName_body n)
  | lit v => exact .lit v _ (encodeLiteral_body v)
  | hex v => exact .hex v _ (hexBytes_hex2 v)
  | ref n g hn hg =>
    have := Denotes.ref n g (natDec n) (natDec g) [0x20] [0x20] (natDec_text n) (natDec_text g) sep_space sep_space
      (by simp) (by simp) hn hg
    have e : writeObj (.ref n g) = natDec n ++ [0x20] ++ natDec g ++ [0x20] ++ [82] := by
      simp [writeObj]
    rw [e]; exact this
  | arr l _ ih =>
    have := Denotes.arr l _ (writeItems_denotes l ih [] .nil)
    simpa [writeObj] using this
  | dict d hs _ hn ih =>
    have := Denotes.dict d d _ (writeEntries_denotes d ih [] .nil) hs (firstValue_noNull d hn)
    simpa [writeObj] using this

/-! ### Dictionaries with null values -/

/-- Every entry without the null entries inside its value; null values themselves are kept. -/
def textEntries (d : Dict) : Dict := d.map (fun x => (x.1, dropNulls x.2))

theorem dropNulls_null (o : Obj) : dropNulls o = .null ↔ o = .null := by
  cases o <;> simp [dropNulls]

theorem dropNullsEntries_cons (k : Bytes) (o : Obj) (es : Dict) (h : o ≠ .null) :
    dropNullsEntries ((k, o) :: es) = (k, dropNulls o) :: dropNullsEntries es := by
  cases o <;> first | rfl | exact absurd rfl h

theorem dropNullsEntries_mem {d : Dict} {x : Bytes × Obj} (h : x ∈ dropNullsEntries d) :
    ∃ y ∈ d, y.1 = x.1 := by
  induction d with
  | nil => simp [dropNullsEntries] at h
  | cons a d ih =>
    obtain ⟨k, o⟩ := a
    by_cases ho : o = .null
    · subst ho
      obtain ⟨y, hy, e⟩ := ih h
      exact ⟨y, List.mem_cons_of_mem _ hy, e⟩
    · rw [dropNullsEntries_cons k o d ho] at h
      rcases List.mem_cons.mp h with rfl | h
      · exact ⟨_, List.mem_cons_self, rfl⟩
      · obtain ⟨y, hy, e⟩ := ih h
        exact ⟨y, List.mem_cons_of_mem _ hy, e⟩

theorem dropNullsEntries_sorted {d : Dict} (h : SortedKeys d) : SortedKeys (dropNullsEntries d) := by
  induction d with
  | nil => exact List.Pairwise.nil
  | cons a d ih =>
    obtain ⟨k, o⟩ := a
    obtain ⟨h1, h2⟩ := List.pairwise_cons.mp h
    by_cases ho : o = .null
    · subst ho; exact ih h2
    · rw [dropNullsEntries_cons k o d ho]
      refine List.pairwise_cons.mpr ⟨fun x hx => ?_, ih h2⟩
      obtain ⟨y, hy, e⟩ := dropNullsEntries_mem hx
      have := h1 y hy
      rw [e] at this; exact this

theorem firstValue_textEntries (d : Dict) (q : Bytes) :
    valueAt q (dropNullsEntries d) = firstValue q (textEntries d) := by
  induction d with
  | nil => rfl
  | cons a d ih =>
    obtain ⟨k, o⟩ := a
    by_cases ho : o = .null
    · subst ho; exact ih
    · have hn : dropNulls o ≠ .null := fun h => ho ((dropNulls_null o).mp h)
      rw [dropNullsEntries_cons k o d ho]
      show _ = firstValue q ((k, dropNulls o) :: textEntries d)
      have e : firstValue q ((k, dropNulls o) :: textEntries d) =
          if q = k then some (dropNulls o) else firstValue q (textEntries d) := by
        generalize dropNulls o = o' at hn
        cases o' <;> first | rfl | exact absurd rfl hn
      rw [e, valueAt, ih]

theorem writeItems_denotes' (l : List Obj) (h : ∀ o ∈ l, Denotes (dropNulls o) (writeObj o)) (sep : Bytes)
    (hs : Sep sep) : Items (dropNullsItems l) (sep ++ writeItems l) := by
  induction l generalizing sep with
  | nil => simpa [writeItems, dropNullsItems] using Items.nil sep hs
  | cons o os ih =>
    cases os with
    | nil =>
      have := Items.cons (dropNulls o) [] sep (writeObj o) [] hs (h o (by simp)) (Items.nil [] .nil)
        (Or.inr (by intro d hd; simp at hd))
      simpa [writeItems, dropNullsItems] using this
    | cons o' os' =>
      have hi := ih (fun x hx => h x (by simp at hx ⊢; exact Or.inr hx)) [0x20] sep_space
      have := Items.cons (dropNulls o) (dropNullsItems (o' :: os')) sep (writeObj o) _ hs (h o (by simp)) hi
        (Or.inr (ends_space _))
      have e : writeItems (o :: o' :: os') = writeObj o ++ 0x20 :: writeItems (o' :: os') := by
        rw [writeItems]
      rw [e, dropNullsItems]
      simpa using this

theorem writeEntries_denotes' (d : Dict) (h : ∀ x ∈ d, Denotes (dropNulls x.2) (writeObj x.2)) (sep : Bytes)
    (hs : Sep sep) : Entries (textEntries d) (sep ++ writeEntries d) := by
  induction d generalizing sep with
  | nil => simpa [writeEntries, textEntries] using Entries.nil sep hs
  | cons a es ih =>
    obtain ⟨k, o⟩ := a
    have ho := h (k, o) (by simp)
    cases es with
    | nil =>
      have := Entries.cons k (dropNulls o) [] sep (encodeName k) [0x20] (writeObj o) [] hs (encodeName_body k) sep_space
        (ends_space _) ho (Entries.nil [] .nil) (Or.inr (by intro d hd; simp at hd))
      simpa [writeEntries, writeName, textEntries] using this
    | cons a' es' =>
      have hi := ih (fun x hx => h x (by simp at hx ⊢; exact Or.inr hx)) [0x20] sep_space
      have := Entries.cons k (dropNulls o) (textEntries (a' :: es')) sep (encodeName k) [0x20] (writeObj o) _ hs
        (encodeName_body k) sep_space (ends_space _) ho hi (Or.inr (ends_space _))
      have e : writeEntries ((k, o) :: a' :: es') =
          writeName k ++ 0x20 :: (writeObj o ++ 0x20 :: writeEntries (a' :: es')) := by rw [writeEntries]
      rw [e]
      simpa [writeName, textEntries] using this

/-- The text the writer emits denotes the object without the null entries. -/
theorem writeObj_denotes' {o : Obj} (h : Holdable o) : Denotes (dropNulls o) (writeObj o) := by
  induction h with
  | null => exact writeObj_denotes .null
  | bool b => exact writeObj_denotes (.bool b)
  | int i h1 h2 => exact writeObj_denotes (.int i h1 h2)
  | real m p h => exact writeObj_denotes (.real m p h)
  | name n => exact writeObj_denotes (.name n)
  | lit v => exact writeObj_denotes (.lit v)
  | hex v => exact writeObj_denotes (.hex v)
  | ref n g hn hg => exact writeObj_denotes (.ref n g hn hg)
  | arr l _ ih =>
    have := Denotes.arr _ _ (writeItems_denotes' l ih [] .nil)
    simpa [writeObj, dropNulls] using this
  | dict d hs _ ih =>
    have := Denotes.dict (textEntries d) (dropNullsEntries d) _ (writeEntries_denotes' d ih [] .nil)
      (dropNullsEntries_sorted hs) (firstValue_textEntries d)
    simpa [writeObj, dropNulls] using this

end VPdf
