import Verif.Lemmas.XrefStream
/-
  C21, C61: the content of cross-reference streams.
-/
namespace VPdf
open Spec

/-! ### C61 -/

/-- **C61**, partial: the content of every cross-reference stream with a type field, of any widths and any subsections,
is read as the entries it lists, the last one for a number counting.  Missing: streams without a type field, see
`C61_default_type_counterexample`, and entries of unknown types, see `C61_unknown_type_counterexample`. -/
theorem C61_any_stream_is_read_partial (w : Widths) (es : List XEntry) (ix : List Nat) (s : Bytes)
    (h : StreamBody w es ix s) (hw : w.w1 ≠ 0) :
    ∃ l, readXrefStream ⟨w, ix, s⟩ = .ok l ∧ Distinct l ∧ ∀ n, EntrySet.find n l = lastEntry n es := by
  obtain ⟨l, h1, h2, h3⟩ := readIndex_spec hw h [] List.Pairwise.nil
  exact ⟨l, h1, h2, fun n => by rw [h3]; simp [EntrySet.find]⟩

/-- Two subsections, widths 1, 2 and 0 (generation and index 0). -/
example : StreamBody ⟨1, 2, 0⟩ [⟨0, 0, .free 3⟩, ⟨1, 0, .used 258⟩, ⟨9, 0, .compressed 5 0⟩] [0, 2, 9, 1]
    [0, 0, 3, 1, 1, 2, 2, 0, 5, 99] := by
  have e : ([0, 0, 3, 1, 1, 2, 2, 0, 5, 99] : Bytes) =
    (([0] ++ [0, 3] ++ []) ++ (([1] ++ [1, 2] ++ []) ++ [])) ++ ((([2] ++ [0, 5] ++ []) ++ []) ++ [99]) := rfl
  rw [e]
  exact .cons 0 [_, _] _ _ _ _ (.cons ⟨0, 0, .free 3⟩ _ _ _ (by decide) (.free 0 0 3 [0] [0, 3] [] ⟨rfl, by decide⟩ ⟨rfl, by decide⟩
    ⟨rfl, by decide⟩ (by decide) (by decide)) (.cons ⟨1, 0, .used (258 : Nat)⟩ _ _ _ (by decide) (.used 1 0 258 [1] [1, 2] []
    ⟨rfl, by decide⟩ ⟨rfl, by decide⟩ ⟨rfl, by decide⟩ (by decide) (by decide)) (.nil _))) (by decide)
    (.cons 9 [_] _ _ _ _ (.cons ⟨9, 0, .compressed 5 0⟩ _ _ _ (by decide) (.compressed 9 5 0 [2] [0, 5] [] ⟨rfl, by decide⟩
      ⟨rfl, by decide⟩ ⟨rfl, by decide⟩ (by decide) (by decide)) (.nil _)) (by decide) (.nil _))

/-- **C61** fails without a type field: the standard says that all entries are in use (type 1), each is read as free. -/
theorem C61_default_type_counterexample (w : Widths) (num gen offset : Nat) (s : Bytes) (hw : w.w1 = 0)
    (hn : num < 18446744073709551616) (h : StreamRow w ⟨num, gen, .used offset⟩ s) :
    StreamBody w [⟨num, gen, .used offset⟩] [num, 1] s ∧
    readXrefStream ⟨w, [num, 1], s⟩ = .ok [⟨num, gen, .free offset⟩] := by
  refine ⟨?_, ?_⟩
  · have := StreamBody.cons num [⟨num, gen, .used offset⟩] [] [] s [] (by
      have := StreamRows.cons ⟨num, gen, .used offset⟩ [] s [] hn h (.nil _); simpa using this) (by simp) (.nil _)
    simpa using this
  · generalize he : (⟨num, gen, .used (offset : Int)⟩ : XEntry) = e at h
    cases h with
    | free => cases he
    | compressed => cases he
    | used num' gen' offset' a b c ha hb hc h1 h2 =>
      injection he with e1 e2 e3; subst e1; subst e2
      injection e3 with e3
      obtain rfl : offset = offset' := by exact_mod_cast e3
      have ha0 : a = [] := List.length_eq_zero_iff.mp (by rw [ha.1, hw])
      subst ha0
      have hrow : readRow w num 0 ([] ++ b ++ c) = .ok (⟨num, gen, .free offset⟩, []) := by
        unfold readRow
        rw [hw, List.nil_append, readField, ok_bind]; dsimp only
        rw [readField_field hb (by omega), ok_bind]; dsimp only
        have hc' := readField_field hc (by omega) []
        rw [List.append_nil] at hc'
        rw [hc', ok_bind]; dsimp only
        have := safeAddition_idx num 0 (by omega) (by omega)
        rw [this, ok_bind, i64_cast_small (v := gen) (by omega)]
        unfold streamEntry
        rw [if_pos rfl, safeConvert_u16 h2, ok_bind, u64_i64_cast (by omega)]; rfl
      rw [readXrefStream, readIndex, readRows, if_neg (by omega)]
      show ((readRow w num 0 ([] ++ b ++ c) >>= _) >>= _) = _
      rw [hrow]; rfl

/-- The hypotheses are met by a stream with the widths 0, 2 and 1. -/
example : StreamRow ⟨0, 2, 1⟩ ⟨4, 0, .used (300 : Nat)⟩ [1, 44, 0] :=
  .used 4 0 300 [] [1, 44] [0] ⟨rfl, rfl⟩ ⟨rfl, by decide⟩ ⟨rfl, by decide⟩ (by decide) (by decide)

/-- **C61** fails for entries of other types, which ISO 32000-1 7.5.8.3 wants treated as references to the null object:
reading the stream fails. -/
theorem C61_unknown_type_counterexample (w : Widths) (num t v g : Nat) (a b c rest : Bytes) (ix : List Nat)
    (hn : num < 18446744073709551616) (ht : 3 ≤ t ∧ t < 9223372036854775808) (hv : v < 18446744073709551616)
    (hg : g < 18446744073709551616) (ha : Spec.Field w.w1 t a) (hb : Spec.Field w.w2 v b) (hc : Spec.Field w.w3 g c)
    (n : Nat) : readXrefStream ⟨w, num :: (n + 1) :: ix, a ++ b ++ c ++ rest⟩ = .error .throw := by
  have hrow : readRow w num 0 (a ++ b ++ c ++ rest) = .error .throw := by
    unfold readRow
    rw [List.append_assoc, List.append_assoc, readField_field ha (by omega), ok_bind]; dsimp only
    rw [readField_field hb (by omega), ok_bind]; dsimp only
    rw [readField_field hc (by omega), ok_bind]; dsimp only
    have := safeAddition_idx num 0 (by omega) (by omega)
    rw [this, ok_bind, i64_cast_small (v := t) (by omega)]
    unfold streamEntry
    rw [if_neg (by omega), if_neg (by omega), if_neg (by omega)]; rfl
  rw [readXrefStream, readIndex, readRows, if_neg (by omega)]
  show ((readRow w num 0 (a ++ b ++ c ++ rest) >>= _) >>= _) = _
  rw [hrow]; rfl

example : Spec.Field 1 3 [3] ∧ Spec.Field 2 258 [1, 2] := ⟨⟨rfl, by decide⟩, rfl, by decide⟩

/-! ### C21 -/

/-- **C21**, exactly: whatever widths the stream had, the recalculated content is a cross-reference stream as in the
standard, and reading it gives the entries with the first run of consecutive numbers renumbered from 0. -/
theorem C21_exact (w : Widths) (l : EntrySet) (hd : Distinct l) (hlen : l.length ≤ 2147483648)
    (hfit : ∀ e ∈ l, StreamFitting e) (h1 : 1 ≤ w.w1) (h1' : w.w1 ≤ 8) (h2 : w.w2 ≤ 8) (h3 : w.w3 ≤ 8) :
    ∃ sorted, sorted.Pairwise (fun a b => a.num < b.num) ∧ (∀ e, e ∈ sorted ↔ e ∈ l) ∧
    ∃ d, recalculateContent w l = .ok d ∧ StreamBody d.widths (firstRunFromZero sorted) d.index d.body ∧
    ∃ l', readXrefStream d = .ok l' ∧ Distinct l' ∧ ∀ n, EntrySet.find n l' = lastEntry n (firstRunFromZero sorted) := by
  obtain ⟨s1, s2, s3⟩ := sorted_spec hd
  obtain ⟨w1, _, _, w2, w3⟩ := widen_spec w (EntrySet.sorted l)
  have fits : ∀ e ∈ EntrySet.sorted l, StreamFitting e := fun e he => hfit e ((s2 e).mp he)
  have vals : ∀ e ∈ EntrySet.sorted l, (0 ≤ secondField e ∧ secondField e < 9223372036854775808) ∧
      thirdField e < 9223372036854775808 := by
    intro e he
    have := fits e he
    obtain ⟨n, g, k⟩ := e
    cases k <;> simp [StreamFitting, secondField, thirdField] at this ⊢ <;> omega
  have cw : ∀ e ∈ EntrySet.sorted l, (contentWidth (secondField e) ≤ 8 ∧ (secondField e).toNat < 256 ^ contentWidth (secondField e)) ∧
      contentWidth (thirdField e) ≤ 8 ∧ thirdField e < 256 ^ contentWidth (thirdField e) := by
    intro e he
    obtain ⟨⟨v1, v2⟩, v3⟩ := vals e he
    have a := C15_content_width_fits_partial (secondField e).toNat (by omega)
    rw [show (((secondField e).toNat : Nat) : Int) = secondField e by omega] at a
    exact ⟨a, C15_content_width_fits_partial (thirdField e) (by omega)⟩
  obtain ⟨b2, b3⟩ := w3 8 h2 h3 (fun e he => ⟨(cw e he).1.1, (cw e he).2.1⟩)
  obtain ⟨ix, body, c1, c2⟩ := content_spec (w := widenFields w (EntrySet.sorted l)) (by omega) (by omega) b2 b3
    (EntrySet.sorted l) (by omega) (fun e he => ⟨fits e he,
      Nat.lt_of_lt_of_le (cw e he).1.2 (Nat.pow_le_pow_right (by decide) (w2 e he).1),
      Nat.lt_of_lt_of_le (cw e he).2.2 (Nat.pow_le_pow_right (by decide) (w2 e he).2)⟩) s1
  refine ⟨_, s1, s2, ⟨widenFields w (EntrySet.sorted l), ix, body⟩, ?_, c2, ?_⟩
  · rw [recalculateContent]; dsimp only; rw [c1]; rfl
  · exact C61_any_stream_is_read_partial _ _ _ _ c2 (by omega)

/-- **C21**, partial: when the section has the entry of object 0 (or no entries), the recalculated content is read back
as exactly the entries of the section.  Missing: sections without object 0, see `C21_lowest_number_counterexample`, and
numbers and offsets of 2^63 and more. -/
theorem C21_roundtrip_partial (w : Widths) (l : EntrySet) (hd : Distinct l) (hlen : l.length ≤ 2147483648)
    (hfit : ∀ e ∈ l, StreamFitting e) (h1 : 1 ≤ w.w1) (h1' : w.w1 ≤ 8) (h2 : w.w2 ≤ 8) (h3 : w.w3 ≤ 8)
    (hz : l = [] ∨ ∃ e ∈ l, e.num = 0) :
    ∃ d l', recalculateContent w l = .ok d ∧ readXrefStream d = .ok l' ∧ Distinct l' ∧ ∀ e, e ∈ l' ↔ e ∈ l := by
  obtain ⟨es, s1, s2, d, d1, _, l', r1, r2, r3⟩ := C21_exact w l hd hlen hfit h1 h1' h2 h3
  refine ⟨d, l', d1, r1, r2, ?_⟩
  have hid : firstRunFromZero es = es := by
    cases es with
    | nil => rfl
    | cons x xs =>
      have hx : x.num = 0 := by
        rcases hz with rfl | ⟨e, he, he0⟩
        · exact absurd ((s2 x).mp (by simp)) (by simp)
        · rcases List.mem_cons.mp ((s2 e).mpr he) with rfl | h
          · exact he0
          · have := (List.pairwise_cons.mp s1).1 e h; omega
      have := renumberRun_id xs x.num
      rw [hx] at this
      rw [firstRunFromZero, hx, this]
      congr 1
      obtain ⟨n, g, k⟩ := x; simp at hx; rw [hx]
  rw [hid] at r3
  have hdr : Distinct es.reverse := by
    unfold Distinct; rw [List.pairwise_reverse]; exact s1.imp (fun h => by omega)
  intro e
  rw [← s2 e]
  constructor
  · intro he
    have := r3 e.num
    rw [find_of_mem r2 he] at this
    have := (find_iff hdr (n := e.num) (e := e)).mp this.symm
    simpa using this.1
  · intro he
    have := r3 e.num
    rw [show lastEntry e.num es = some e from (find_iff hdr (n := e.num) (e := e)).mpr ⟨by simpa using he, rfl⟩] at this
    exact (find_some this).1

example : Distinct [(⟨3, 0, .used 500⟩ : XEntry), ⟨0, 65535, .free 0⟩, ⟨4, 0, .compressed 3 7⟩] ∧
    ∀ e ∈ [(⟨3, 0, .used 500⟩ : XEntry), ⟨0, 65535, .free 0⟩, ⟨4, 0, .compressed 3 7⟩], StreamFitting e := by
  simp [Distinct, StreamFitting]

/-- The widths that the file writer chooses meet the conditions on the type field and the maximal width. -/
theorem C21_writer_widths (l : EntrySet) (hne : l ≠ []) (hfit : ∀ e ∈ l, StreamFitting e) :
    (recalculateWidths l).w1 = 1 ∧ (recalculateWidths l).w2 ≤ 8 ∧ (recalculateWidths l).w3 ≤ 8 := by
  have fold : ∀ (g : XEntry → Nat) (l : List XEntry) (m b : Nat), m ≤ b → (∀ e ∈ l, g e ≤ b) →
      l.foldl (fun m e => Nat.max m (g e)) m ≤ b := by
    intro g l
    induction l with
    | nil => intro m b hm _; exact hm
    | cons e l ih =>
      intro m b hm he
      exact ih _ _ (Nat.max_le.mpr ⟨hm, he e (by simp)⟩) (fun x hx => he x (by simp [hx]))
  have one : ∀ (l : List XEntry), l.foldl (fun m _ => Nat.max m 1) 1 = 1 := by
    intro l; induction l with
    | nil => rfl
    | cons e l ih => rw [List.foldl_cons]; exact ih
  have vals : ∀ e ∈ l, (IntTy.u64.cast (secondField e)).toNat ≤ 9223372036854775807 ∧ thirdField e ≤ 9223372036854775807 := by
    intro e he
    have := hfit e he
    obtain ⟨n, g, k⟩ := e
    cases k <;> simp [StreamFitting, secondField, thirdField] at this ⊢ <;> simp [IntTy.cast, IntTy.u64] <;> omega
  refine ⟨?_, ?_, ?_⟩
  · cases l with
    | nil => exact absurd rfl hne
    | cons e l =>
      unfold recalculateWidths
      dsimp only
      rw [List.foldl_cons, show Nat.max 0 1 = 1 from rfl, one]; decide
  · have := fold (fun e => (IntTy.u64.cast (secondField e)).toNat) l 0 9223372036854775807 (by omega) (fun e he => (vals e he).1)
    exact (C15_writer_width_fits _ _ (by omega) (Nat.le_refl _)).1
  · have := fold thirdField l 0 9223372036854775807 (by omega) (fun e he => (vals e he).2)
    exact (C15_writer_width_fits _ _ (by omega) (Nat.le_refl _)).1

/-- **C21** fails for every section whose lowest number is not 0, as an incremental update has: its first object is read
back under the number 0. -/
theorem C21_lowest_number_counterexample (w : Widths) (l : EntrySet) (hd : Distinct l) (hlen : l.length ≤ 2147483648)
    (hfit : ∀ e ∈ l, StreamFitting e) (h1 : 1 ≤ w.w1) (h1' : w.w1 ≤ 8) (h2 : w.w2 ≤ 8) (h3 : w.w3 ≤ 8)
    (x : XEntry) (hx : x ∈ l) (hlow : ∀ e ∈ l, x.num ≤ e.num) (hpos : x.num ≠ 0) :
    ∃ d l', recalculateContent w l = .ok d ∧ readXrefStream d = .ok l' ∧ { x with num := 0 } ∈ l' ∧
      { x with num := 0 } ∉ l := by
  obtain ⟨es, s1, s2, d, d1, _, l', r1, r2, r3⟩ := C21_exact w l hd hlen hfit h1 h1' h2 h3
  refine ⟨d, l', d1, r1, ?_⟩
  cases es with
  | nil => exact absurd ((s2 x).mpr hx) (by simp)
  | cons y ys =>
    rw [List.pairwise_cons] at s1
    have hyx : y = x := by
      rcases List.mem_cons.mp ((s2 x).mpr hx) with h | h
      · exact h.symm
      · have := s1.1 x h; have := hlow y ((s2 y).mp (by simp)); omega
    subst hyx
    have key : ∀ (zs : List XEntry) (cur prev : Nat), cur ≤ prev → (∀ e ∈ zs, prev < e.num) →
        zs.Pairwise (fun a b => a.num < b.num) → ∀ e ∈ renumberRun cur prev zs, cur ≤ e.num := by
      intro zs
      induction zs with
      | nil => intro cur prev _ _ _; simp [renumberRun]
      | cons z zs ih =>
        intro cur prev hc hg hp
        have hz := hg z (by simp)
        rw [List.pairwise_cons] at hp
        rw [renumberRun]
        split
        · intro e he
          rcases List.mem_cons.mp he with rfl | h
          · simp
          · have := ih (cur + 1) z.num (by omega) hp.1 hp.2 e h; omega
        · intro e he
          have := hg e he; omega
    have k := key ys 1 y.num (by omega) s1.1 s1.2
    have hnone : lastEntry 0 (renumberRun 1 y.num ys) = none := by
      unfold lastEntry
      rw [List.find?_eq_none]
      intro e he
      have := k e (by simpa using he)
      simp; omega
    have r0 := r3 0
    rw [firstRunFromZero, lastEntry_cons, hnone] at r0
    refine ⟨(find_some (e := { y with num := 0 }) (by simpa using r0)).1, fun h => ?_⟩
    have := hlow _ h
    exact hpos (by simpa using this)

/-- An incremental update of the objects 12 and 13. -/
example : Distinct [(⟨12, 0, .used 500⟩ : XEntry), ⟨13, 0, .used 600⟩] ∧
    (∀ e ∈ [(⟨12, 0, .used 500⟩ : XEntry), ⟨13, 0, .used 600⟩], StreamFitting e) ∧
    (recalculateContent ⟨1, 2, 2⟩ [⟨12, 0, .used 500⟩, ⟨13, 0, .used 600⟩] >>= readXrefStream) =
      .ok [⟨0, 0, .used 500⟩, ⟨1, 0, .used 600⟩] := by
  refine ⟨by simp [Distinct], by simp [StreamFitting], by decide⟩

end VPdf
