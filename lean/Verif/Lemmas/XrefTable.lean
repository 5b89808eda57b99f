import Verif.Lemmas.Write
import Verif.Lemmas.Xref
import Verif.Props.Ints
import Verif.Model.XrefTable
import Verif.Spec.XrefTable
/-
  Reading and writing cross-reference tables.
-/
namespace VPdf
open Spec

theorem expectSkip_token {dict : List Bytes} {s r : Bytes} {t : Token} (h : readTokenSkip dict s = .ok (t, r)) :
    expectSkip dict t.type s = .ok (t, r) := by
  rw [expectSkip, h, ok_bind]; simp; rfl

theorem skip_int {p : Bytes} (hp : Sep p) {i : Int} {s : Bytes} (h : IntText i s) (x : Bytes) (hx : EndsToken x) :
    readTokenSkip parserKeywords (p ++ (s ++ x)) = .ok (⟨.integer, s⟩, x) := by
  rw [readTokenSkip_sep _ _ _ hp]
  exact readTokenSkip_of_token (readToken_int parserKeywords h x hx) (by simp)

theorem skip_keyword {p : Bytes} (hp : Sep p) (c : Byte) (w x : Bytes) (hc : isRegular c = true)
    (hn : (isNumeric c || c == 0x2B || c == 0x2D || c == 0x2E) = false) (hw : ∀ d ∈ w, isRegular d = true)
    (hx : EndsToken x) :
    readTokenSkip parserKeywords (p ++ (c :: w ++ x)) = .ok (⟨dictFind parserKeywords (c :: w), c :: w⟩, x) := by
  rw [readTokenSkip_sep _ _ _ hp]
  refine readTokenSkip_of_token (readToken_keyword parserKeywords c w x hc hn hw hx) ?_
  unfold dictFind; split <;> simp

theorem safeConvert_gen {g : Nat} (h : g ≤ 65535) : safeConvert .u16 .i64 (if (g : Int) > 65535 then 65535 else (g : Int)) = .ok (g : Int) := by
  rw [if_neg (by omega)]
  apply C13_error_only_if_unfit_partial
  · decide
  · decide
  · rw [fits_iff]; simp [IntTy.i64, IntTy.lowest, IntTy.max]; omega
  · rw [fits_iff]; simp [IntTy.u16, IntTy.lowest, IntTy.max]; omega
  · simp [IntTy.u16]

theorem readTableEntry_text {e : XEntry} {t : Bytes} (h : TableLine e t) (p : Bytes) (hp : Sep p) (x : Bytes) :
    ∃ c, Sep c ∧ readTableEntry e.num (p ++ (t ++ x)) = .ok (seenEntry e, c ++ x) := by
  cases h with
  | used num gen off so sg a b c h1 h2 h3 h4 h5 ha hb hc na nb nc =>
    refine ⟨c, hc, ?_⟩
    have e1 : p ++ (so ++ a ++ sg ++ b ++ 110 :: c ++ x) = p ++ (so ++ (a ++ (sg ++ (b ++ ([110] ++ [] ++ (c ++ x)))))) := by
      simp
    have k1 := expectSkip_token (skip_int hp h1 (a ++ (sg ++ (b ++ ([110] ++ [] ++ (c ++ x))))) (sep_ends _ _ ha na))
    have k2 := expectSkip_token (skip_int ha h4 (b ++ ([110] ++ [] ++ (c ++ x))) (sep_ends _ _ hb nb))
    have k3 := skip_keyword hb 110 [] (c ++ x) (by decide) (by decide) (by simp) (sep_ends _ _ hc nc)
    rw [e1, readTableEntry, k1, ok_bind]
    dsimp only
    rw [k2, ok_bind]
    dsimp only
    rw [stoll_text h1 h2 h3, ok_bind, stoll_text h4 (by omega) (by omega), ok_bind]
    rw [show ([110] ++ [] ++ (c ++ x) : Bytes) = 110 :: [] ++ (c ++ x) from rfl, k3, ok_bind]
    dsimp only
    rw [if_pos (by rfl), safeConvert_gen h5, ok_bind]
    simp [seenEntry]; rfl
  | free num gen next so sg a b c h1 h2 h4 h5 ha hb hc na nb nc =>
    refine ⟨c, hc, ?_⟩
    have e1 : p ++ (so ++ a ++ sg ++ b ++ 102 :: c ++ x) = p ++ (so ++ (a ++ (sg ++ (b ++ ([102] ++ [] ++ (c ++ x)))))) := by
      simp
    have k1 := expectSkip_token (skip_int hp h1 (a ++ (sg ++ (b ++ ([102] ++ [] ++ (c ++ x))))) (sep_ends _ _ ha na))
    have k2 := expectSkip_token (skip_int ha h4 (b ++ ([102] ++ [] ++ (c ++ x))) (sep_ends _ _ hb nb))
    have k3 := skip_keyword hb 102 [] (c ++ x) (by decide) (by decide) (by simp) (sep_ends _ _ hc nc)
    rw [e1, readTableEntry, k1, ok_bind]
    dsimp only
    rw [k2, ok_bind]
    dsimp only
    rw [stoll_text h1 (by omega) (by omega), ok_bind, stoll_text h4 (by omega) (by omega), ok_bind]
    rw [show ([102] ++ [] ++ (c ++ x) : Bytes) = 102 :: [] ++ (c ++ x) from rfl, k3, ok_bind]
    dsimp only
    rw [if_neg (by decide), if_pos (by rfl), safeConvert_gen h5, ok_bind]
    simp [seenEntry]; rfl

theorem seenEntry_num (e : XEntry) : (seenEntry e).num = e.num := by
  obtain ⟨n, g, k⟩ := e; cases k <;> rfl

theorem safeAddition_index (base i : Nat) (h : base + i < 18446744073709551616) :
    safeAddition .u64 .u64 .u64 base i = .ok ((base + i : Nat) : Int) := by
  rw [C14_addition_error_iff .u64 (by decide) rfl]
  · rw [if_pos (by simp [IntTy.u64]; omega)]; rfl
  · rw [fits_iff]; simp [IntTy.u64, IntTy.lowest, IntTy.max]; omega
  · rw [fits_iff]; simp [IntTy.u64, IntTy.lowest, IntTy.max]; omega

theorem lastEntry_cons (n : Nat) (e : XEntry) (es : List XEntry) :
    lastEntry n (e :: es) = (lastEntry n es).or (if n = e.num then some e else none) := by
  unfold lastEntry
  rw [List.reverse_cons, List.find?_append]
  by_cases h : n = e.num
  · subst h; simp
  · rw [if_neg h]
    have : ([e].find? fun x => x.num == n) = none := by simp [Ne.symm h]
    rw [this]

/-- What reading the entries `es` in turn makes of a set of entries. -/
def Adds (es : List XEntry) (l l' : EntrySet) : Prop :=
  Distinct l' ∧ ∀ n, EntrySet.find n l' = ((lastEntry n es).map seenEntry).or (EntrySet.find n l)

theorem adds_nil {l : EntrySet} (h : Distinct l) : Adds [] l l := ⟨h, fun _ => rfl⟩

theorem adds_cons {e : XEntry} {es : List XEntry} {l l1 l' : EntrySet} (h1 : EntrySet.add (seenEntry e) l = .ok l1)
    (hd : Distinct l) (h : Adds es l1 l') : Adds (e :: es) l l' := by
  refine ⟨h.1, fun n => ?_⟩
  obtain ⟨l2, e1, e2, e3⟩ := add_spec hd (seenEntry e)
  rw [h1] at e1; injection e1 with e1; subst e1
  rw [h.2, e3, lastEntry_cons, seenEntry_num]
  cases lastEntry n es with
  | some x => simp
  | none => by_cases hn : n = e.num <;> simp [hn]

theorem adds_append {es fs : List XEntry} {l l1 l2 : EntrySet} (h1 : Adds es l l1) (h2 : Adds fs l1 l2) :
    Adds (es ++ fs) l l2 := by
  refine ⟨h2.1, fun n => ?_⟩
  rw [h2.2, h1.2]
  unfold lastEntry
  rw [List.reverse_append, List.find?_append]
  cases List.find? (fun e => e.num == n) fs.reverse with
  | some x => simp
  | none => simp

theorem readTableEntries_text {n : Nat} {es : List XEntry} {t : Bytes} (h : TableLines n es t) (base i : Nat)
    (hn : base + i = n) (p : Bytes) (hp : Sep p) (x : Bytes) (l : EntrySet) (hd : Distinct l) :
    ∃ l' c, Sep c ∧ (es ≠ [] ∨ c = p) ∧ readTableEntries base es.length i (p ++ (t ++ x)) l = .ok (l', c ++ x) ∧ Adds es l l' := by
  induction h generalizing i p l with
  | nil n => exact ⟨l, p, hp, Or.inr rfl, rfl, adds_nil hd⟩
  | cons e es t s hlt ht _ ih =>
    obtain ⟨c, hc, hr⟩ := readTableEntry_text ht p hp (s ++ x)
    obtain ⟨l1, a1, a2, a3⟩ := add_spec hd (seenEntry e)
    obtain ⟨l', c', hc', -, hr', ha'⟩ := ih (i + 1) (by omega) c hc l1 a2
    refine ⟨l', c', hc', Or.inl (by simp), ?_, adds_cons a1 hd ha'⟩
    rw [List.length_cons, readTableEntries, safeAddition_index base i (by omega), ok_bind]
    rw [show ((base + i : Nat) : Int).toNat = e.num by omega, List.append_assoc, hr, ok_bind]
    dsimp only
    rw [a1, ok_bind, hr']

theorem stoull_text {n : Nat} {s : Bytes} (h : IntText n s) (hn : n < 18446744073709551616) : stoull s = .ok n := by
  unfold stoull
  rw [strtolInt_text h, ok_bind, if_pos (by omega)]
  have : ((n : Int) % 18446744073709551616).toNat = n := by omega
  rw [this]; rfl

theorem readSubsections_text {es : List XEntry} {s : Bytes} (h : TableBody es s) (f : Nat) (hf : s.length < f) (p : Bytes)
    (hp : Sep p) (x : Bytes) (hx : EndsToken x) (l : EntrySet) (hd : Distinct l) :
    ∃ l' c, Sep c ∧ readSubsections f (p ++ (s ++ (b! "trailer" ++ x))) l = .ok (l', c ++ (b! "trailer" ++ x)) ∧
      Adds es l l' := by
  induction h generalizing f p l with
  | nil =>
    cases f with
    | zero => simp at hf
    | succ f =>
      refine ⟨l, p, hp, ?_, adds_nil hd⟩
      have := skip_keyword hp 0x74 (b! "railer") x (by decide) (by decide) (by decide) hx
      rw [readSubsections, List.nil_append]
      rw [show (b! "trailer" ++ x : Bytes) = 0x74 :: b! "railer" ++ x from rfl, this, ok_bind]
      rfl
  | cons base es rest sb sn a b t s h1 h2 h3 h4 ha hb na nb ht _ ih =>
    cases f with
    | zero => simp at hf
    | succ f =>
      have hapos := List.length_pos_iff.mpr na
      obtain ⟨l1, c1, hc1, -, hr1, had1⟩ :=
        readTableEntries_text ht base 0 rfl b hb (s ++ (b! "trailer" ++ x)) l hd
      obtain ⟨l2, c2, hc2, hr2, had2⟩ := ih f (by simp at hf; omega) c1 hc1 l1 had1.1
      refine ⟨l2, c2, hc2, ?_, adds_append had1 had2⟩
      have e1 : p ++ (sb ++ a ++ sn ++ b ++ t ++ s ++ (b! "trailer" ++ x)) =
          p ++ (sb ++ (a ++ (sn ++ (b ++ (t ++ (s ++ (b! "trailer" ++ x))))))) := by simp
      have k1 := skip_int hp h1 (a ++ (sn ++ (b ++ (t ++ (s ++ (b! "trailer" ++ x)))))) (sep_ends _ _ ha na)
      have k2 := skip_int ha h3 (b ++ (t ++ (s ++ (b! "trailer" ++ x)))) (sep_ends _ _ hb nb)
      rw [e1, readSubsections, k1, ok_bind]
      dsimp only
      rw [if_neg (by simp), expectSkip_token k1, ok_bind]
      dsimp only
      rw [expectSkip_token k2, ok_bind]
      dsimp only
      rw [stoull_text h1 h2, ok_bind, stoull_text h3 h4, ok_bind, hr1, ok_bind]
      exact hr2

theorem dict_starts {d : Dict} {t : Bytes} (h : Denotes (.dict d) t) : ∃ u, t = 60 :: 60 :: u := by
  cases h with
  | dict es d s => exact ⟨_, rfl⟩

/-- The main lemma: any text of a table is read. -/
theorem readXrefTable_text (env : Env) {es : List XEntry} {d : Dict} {s : Bytes} (h : TableText es d s) (x : Bytes)
    (hx : Follow x) :
    ∃ l, readXrefTable env (s ++ x) = .ok (l, d, x) ∧ Adds es [] l := by
  cases h with
  | mk a body b t ha na hb hsb hd =>
    obtain ⟨u, hu⟩ := dict_starts hd
    have hends : EndsToken (b ++ (t ++ x)) := by
      by_cases hbe : b = []
      · subst hbe; rw [hu]; intro c hc; simp at hc; subst hc; decide
      · exact sep_ends _ _ hsb hbe
    have e1 : b! "xref" ++ a ++ body ++ b! "trailer" ++ b ++ t ++ x =
        0x78 :: b! "ref" ++ (a ++ (body ++ (b! "trailer" ++ (b ++ (t ++ x))))) := by simp
    have k1 := expectSkip_token (skip_keyword .nil 0x78 (b! "ref") (a ++ (body ++ (b! "trailer" ++ (b ++ (t ++ x)))))
      (by decide) (by decide) (by decide) (sep_ends _ _ ha na))
    obtain ⟨l, c, hc, hr, hadd⟩ := readSubsections_text hb
      ((a ++ (body ++ (b! "trailer" ++ (b ++ (t ++ x))))).length + 1) (by simp; omega) a ha (b ++ (t ++ x)) hends []
      List.Pairwise.nil
    refine ⟨l, ?_, hadd⟩
    have k2 := expectSkip_token (skip_keyword hc 0x74 (b! "railer") (b ++ (t ++ x)) (by decide) (by decide) (by decide) hends)
    have k3 := (denotes_parses env hd x (Or.inl ?_) hx).1 (2 * (b ++ (t ++ x)).length + 2) (by simp; omega)
    · rw [e1, readXrefTable]
      have k1' : expectSkip parserKeywords (.keyword (b! "xref")) (0x78 :: b! "ref" ++ (a ++ (body ++ (b! "trailer" ++ (b ++ (t ++ x)))))) = _ := k1
      rw [k1', ok_bind]
      dsimp only
      rw [hr, ok_bind]
      dsimp only
      have k2' : expectSkip parserKeywords (.keyword (b! "trailer")) (c ++ (b! "trailer" ++ (b ++ (t ++ x)))) = _ := k2
      rw [k2', ok_bind]
      dsimp only
      rw [parse, readDirect_sep env _ _ hsb, k3, ok_bind]
      rfl
    · cases hd with
      | dict es d s => exact ⟨60 :: 60 :: (s ++ [62]), 62, by simp, by simp⟩

/-! ### Writing -/

theorem digitsVal_zeros (n : Nat) (ds : Bytes) : digitsVal (List.replicate n 0x30 ++ ds) = digitsVal ds := by
  induction n with
  | zero => rfl
  | succ n ih => rw [List.replicate_succ, List.cons_append]; exact ih

theorem fmtZero_text (w : Nat) (i : Int) : IntText i (fmtZero w i) := by
  obtain ⟨h1, h2, h3⟩ := natDec_facts i.natAbs
  unfold fmtZero
  refine ⟨List.replicate (w - ((if i < 0 then [0x2D] else [] : Bytes).length + (natDec i.natAbs).length)) 0x30 ++ natDec i.natAbs,
    by simp [h1], ?_, ?_⟩
  · intro c hc
    rcases List.mem_append.mp hc with hc | hc
    · have := (List.mem_replicate.mp hc).2; subst this; unfold IsDigit; decide
    · exact h2 c hc
  · rw [digitsVal_zeros, h3]
    by_cases hi : i < 0
    · exact Or.inr (Or.inr ⟨by simp [hi], by omega⟩)
    · exact Or.inl ⟨by simp [hi], by omega⟩

theorem sep_spaceLf : Sep (b! " \n") := .ws 32 _ (by decide) (.ws 10 [] (by decide) .nil)

theorem writeTableLine_text {e : XEntry} (h : Fitting e) (inUse : XEntry → Bool) (hu : inUse e = true) :
    TableLine e (writeTableLine inUse e) := by
  obtain ⟨num, gen, k⟩ := e
  obtain ⟨h1, h2, h3⟩ := h
  cases k with
  | free next =>
    have := TableLine.free num gen next _ _ _ _ _ (fmtZero_text 10 next) h3 (fmtZero_text 5 gen) h2 sep_space sep_space
      sep_spaceLf (by simp) (by simp) (by simp)
    simpa [writeTableLine] using this
  | used off =>
    have := TableLine.used num gen off _ _ _ _ _ (fmtZero_text 10 off) h3.1 h3.2 (fmtZero_text 5 gen) h2 sep_space sep_space
      sep_spaceLf (by simp) (by simp) (by simp)
    simpa [writeTableLine, hu] using this
  | compressed a b => exact h3.elim

theorem takeRun_append (n : Nat) (es : List XEntry) : (takeRun n es).1 ++ (takeRun n es).2 = es := by
  induction es generalizing n with
  | nil => rfl
  | cons e es ih =>
    rw [takeRun]
    split
    · show e :: ((takeRun (n + 1) es).1 ++ (takeRun (n + 1) es).2) = _
      rw [ih]
    · rfl

theorem takeRun_lines (inUse : XEntry → Bool) (n : Nat) (es : List XEntry)
    (h : ∀ e ∈ es, Fitting e ∧ inUse e = true) :
    TableLines n (takeRun n es).1 ((takeRun n es).1.flatMap (writeTableLine inUse)) := by
  induction es generalizing n with
  | nil => exact .nil n
  | cons e es ih =>
    rw [takeRun]
    split
    · rename_i hn
      subst hn
      have he := h e List.mem_cons_self
      exact .cons e _ _ _ he.1.1 (writeTableLine_text he.1 inUse he.2)
        (ih (e.num + 1) (fun x hx => h x (List.mem_cons_of_mem _ hx)))
    · exact .nil n

theorem sep_lf : Sep (b! "\n") := .ws 10 [] (by decide) .nil

theorem writeSubsections_text (inUse : XEntry → Bool) (f : Nat) (es : List XEntry) (hf : es.length ≤ f)
    (hl : es.length < 18446744073709551616) (h : ∀ e ∈ es, Fitting e ∧ inUse e = true) :
    TableBody es (writeSubsections inUse f es) := by
  induction f generalizing es with
  | zero =>
    have : es = [] := List.length_eq_zero_iff.mp (by omega)
    subst this; exact .nil
  | succ f ih =>
    cases es with
    | nil => exact .nil
    | cons e es =>
      have ha := takeRun_append (e.num + 1) es
      have hlen : (takeRun (e.num + 1) es).1.length + (takeRun (e.num + 1) es).2.length = es.length := by
        rw [← List.length_append, ha]
      have he := h e List.mem_cons_self
      have hes := fun x hx => h x (List.mem_cons_of_mem _ hx)
      have hrest := ih (takeRun (e.num + 1) es).2 (by simp at hf; omega) (by simp at hl; omega)
        (fun x hx => hes x (by rw [← ha]; exact List.mem_append_right _ hx))
      have hlines := TableLines.cons e _ _ _ he.1.1 (writeTableLine_text he.1 inUse he.2)
        (takeRun_lines inUse (e.num + 1) es hes)
      have := TableBody.cons e.num (e :: (takeRun (e.num + 1) es).1) _ (natDec e.num)
        (natDec ((takeRun (e.num + 1) es).1.length + 1)) (b! " ") (b! "\n") _ _ (natDec_text _) he.1.1 (natDec_text _)
        (by simp at hl ⊢; omega) sep_space sep_lf (by simp) (by simp) hlines hrest
      rw [List.cons_append, ha] at this
      rw [writeSubsections]
      simpa using this

/-- The writer emits a text of the table. -/
theorem writeXrefTable_text (inUse : XEntry → Bool) (l : EntrySet) (d : Dict) (hd : Distinct l)
    (hl : l.length < 18446744073709551616) (h : ∀ e ∈ l, Fitting e ∧ inUse e = true) (ht : Holdable (.dict d)) :
    ∃ s, writeXrefTable inUse l d = s ++ b! "\n" ∧ TableText (EntrySet.sorted l) (dropNullsEntries d) s := by
  obtain ⟨h1, h2, h3⟩ := sorted_spec hd
  refine ⟨_, rfl, ?_⟩
  have hb := writeSubsections_text inUse l.length (EntrySet.sorted l) (by omega) (by omega) (fun e he => h e ((h2 e).mp he))
  have := TableText.mk _ (dropNullsEntries d) (b! "\n") _ (b! "\n") _ sep_lf (by simp) hb sep_lf (writeObj_denotes' ht)
  simpa using this

theorem natDecAux_length (f n w : Nat) (acc : Bytes) (h : n < 10 ^ (w + 1)) :
    (natDecAux f n acc).length ≤ acc.length + (w + 1) := by
  induction f generalizing n w acc with
  | zero => simp [natDecAux]
  | succ f ih =>
    rw [natDecAux]
    split
    · simp
    · rename_i hz
      cases w with
      | zero => simp at h; omega
      | succ w =>
        have := ih (n / 10) w (decDigit (n % 10) :: acc) (by rw [Nat.pow_succ] at h; omega)
        simp at this ⊢; omega

theorem fmtZero_length (n w : Nat) (h : n < 10 ^ (w + 1)) : (fmtZero (w + 1) n).length = w + 1 := by
  have := natDecAux_length (n + 1) n w [] h
  unfold fmtZero natDec
  have h0 : ¬ ((n : Int) < 0) := by omega
  simp only [h0, if_false, Int.natAbs_natCast, List.nil_append, List.length_append, List.length_replicate, List.length_nil] at this ⊢
  omega

end VPdf
