import Verif.Lemmas.XrefTable
import Verif.Spec.XrefStream
import Verif.Props.Ints
/-
  Lemmas for cross-reference streams.
-/
namespace VPdf
open Spec

theorem safeAddition_idx (base i : Nat) (h : base + i < 18446744073709551616) (hi : i ≤ 2147483647) :
    safeAddition .u64 .u64 .i32 base i = .ok ((base + i : Nat) : Int) := by
  have hc : IntTy.common .u64 .i32 = .u64 := by decide
  have hc' : IntTy.common .u64 .u64 = .u64 := by decide
  have hc2 : IntTy.common .i32 .i32 = .i32 := by decide
  have e : ∀ n : Nat, n < 18446744073709551616 → IntTy.u64.cast (n : Int) = n := by
    intro n hn; simp [IntTy.cast, IntTy.u64]; omega
  have e0 : IntTy.u64.cast 0 = 0 := by decide
  have ha : cppAdd IntTy.u64 IntTy.i32 base i = .ok ((base + i : Nat) : Int) := by
    unfold cppAdd; rw [hc]; dsimp only
    rw [e base (by omega), e i (by omega)]
    unfold arith; rw [if_neg (by decide)]
    rw [show ((base : Int) + i) = ((base + i : Nat) : Int) by simp, e _ h]
  have l1 : cppLt IntTy.u64 IntTy.i32 base 0 = false := by
    unfold cppLt; rw [hc]; dsimp only; rw [e base (by omega), e0]; simp
  have l2 : cppLt IntTy.u64 IntTy.u64 ((base + i : Nat) : Int) base = false := by
    unfold cppLt; rw [hc']; dsimp only; rw [e base (by omega), e _ h]; simp
  unfold safeAddition
  rw [ha, ok_bind]; dsimp only
  rw [e _ h, l1, l2]; rfl

theorem readField_field {w v : Nat} {f : Bytes} (h : Field w v f) (hv : v < 18446744073709551616) (rest : Bytes) :
    readField w 0 (f ++ rest) = .ok (IntTy.i64.cast v, rest) := by
  obtain ⟨rfl, rfl⟩ := h
  have := readField_spec f 0 rest (by omega) (Or.inl (by decide))
  simpa [show IntTy.i64.cast 0 = 0 by decide] using this

theorem i64_cast_small {v : Nat} (h : v < 9223372036854775808) : IntTy.i64.cast (v : Int) = v := by
  simp [IntTy.cast, IntTy.i64]; split <;> rename_i h1
  · have := of_decide_eq_true h1; omega
  · omega

theorem u64_i64_cast {v : Nat} (h : v < 18446744073709551616) : IntTy.u64.cast (IntTy.i64.cast (v : Int)) = v := by
  simp [IntTy.cast, IntTy.i64, IntTy.u64]; split <;> omega

theorem safeConvert_u16 {g : Nat} (h : g ≤ 65535) : safeConvert .u16 .i64 (g : Int) = .ok (g : Int) := by
  have := safeConvert_gen h
  rwa [if_neg (by omega)] at this

theorem safeConvert_u64 {g : Nat} (h : g < 9223372036854775808) : safeConvert .u64 .i64 (g : Int) = .ok (g : Int) := by
  have e : IntTy.u64.cast (g : Int) = g := by simp [IntTy.cast, IntTy.u64]; omega
  have r : isInRange .u64 .i64 (g : Int) = true := by
    unfold isInRange isInRangeSame
    rw [if_neg (by decide), if_pos (by decide), if_neg (by omega), if_pos (by decide)]
  rw [safeConvert, if_pos r, e]

theorem readRow_spec {w : Widths} {e : XEntry} {t : Bytes} (h : StreamRow w e t) (hw : w.w1 ≠ 0) (base i : Nat)
    (hn : e.num = base + i) (hm : e.num < 18446744073709551616) (hi : i ≤ 2147483647) (x : Bytes) :
    readRow w base i (t ++ x) = .ok (e, x) := by
  have ty : ∀ {k : Nat} {a : Bytes}, TypeField w.w1 k a → Field w.w1 k a := by
    rintro k a ⟨h1, h2⟩; rw [if_neg hw] at h2; exact ⟨h1, h2⟩
  unfold readRow
  cases h with
  | free num gen next a b c ha hb hc h1 h2 =>
    dsimp only at hn hm
    rw [List.append_assoc, List.append_assoc, readField_field (ty ha) (by decide), ok_bind]; dsimp only
    rw [readField_field hb h1, ok_bind]; dsimp only
    rw [readField_field hc (by omega), ok_bind]; dsimp only
    rw [safeAddition_idx base i (by omega) hi, ok_bind, i64_cast_small (v := 0) (by omega), i64_cast_small (v := gen) (by omega)]
    unfold streamEntry
    rw [if_pos (by decide), safeConvert_u16 h2, ok_bind, u64_i64_cast h1, hn]; rfl
  | used num gen offset a b c ha hb hc h1 h2 =>
    dsimp only at hn hm
    rw [List.append_assoc, List.append_assoc, readField_field (ty ha) (by decide), ok_bind]; dsimp only
    rw [readField_field hb (by omega), ok_bind]; dsimp only
    rw [readField_field hc (by omega), ok_bind]; dsimp only
    rw [safeAddition_idx base i (by omega) hi, ok_bind, i64_cast_small (v := 1) (by omega), i64_cast_small (v := gen) (by omega),
      i64_cast_small h1]
    unfold streamEntry
    rw [if_neg (by decide), if_pos (by decide), safeConvert_u16 h2, ok_bind, hn]; rfl
  | compressed num stream index a b c ha hb hc h1 h2 =>
    dsimp only at hn hm
    rw [List.append_assoc, List.append_assoc, readField_field (ty ha) (by decide), ok_bind]; dsimp only
    rw [readField_field hb (by omega), ok_bind]; dsimp only
    rw [readField_field hc (by omega), ok_bind]; dsimp only
    rw [safeAddition_idx base i (by omega) hi, ok_bind, i64_cast_small (v := 2) (by omega), i64_cast_small (v := index) (by omega)]
    unfold streamEntry
    rw [if_neg (by decide), if_neg (by decide), if_pos (by decide), safeConvert_u64 h2, ok_bind, u64_i64_cast h1, hn]; rfl

/-- What adding the entries `es` in turn makes of a set of entries. -/
def AddsAll (es : List XEntry) (l l' : EntrySet) : Prop :=
  Distinct l' ∧ ∀ n, EntrySet.find n l' = (lastEntry n es).or (EntrySet.find n l)

theorem addsAll_cons {e : XEntry} {es : List XEntry} {l l1 l' : EntrySet} (h1 : EntrySet.add e l = .ok l1)
    (hd : Distinct l) (h : AddsAll es l1 l') : AddsAll (e :: es) l l' := by
  refine ⟨h.1, fun n => ?_⟩
  obtain ⟨l2, e1, e2, e3⟩ := add_spec hd e
  rw [h1] at e1; injection e1 with e1; subst e1
  rw [h.2, e3, lastEntry_cons]
  cases lastEntry n es with
  | some x => simp
  | none => by_cases hn : n = e.num <;> simp [hn]

theorem addsAll_append {es fs : List XEntry} {l l1 l2 : EntrySet} (h1 : AddsAll es l l1) (h2 : AddsAll fs l1 l2) :
    AddsAll (es ++ fs) l l2 := by
  refine ⟨h2.1, fun n => ?_⟩
  rw [h2.2, h1.2]
  unfold lastEntry
  rw [List.reverse_append, List.find?_append]
  cases List.find? (fun e => e.num == n) fs.reverse with
  | some x => simp
  | none => simp

theorem readRows_spec {w : Widths} (hw : w.w1 ≠ 0) {n : Nat} {es : List XEntry} {t : Bytes} (h : StreamRows w n es t)
    (base i : Nat) (hn : n = base + i) (hi : i + es.length ≤ 2147483648) (x : Bytes) (l : EntrySet) (hl : Distinct l) :
    ∃ l', readRows w base es.length i (t ++ x) l = .ok (l', x) ∧ AddsAll es l l' := by
  induction h generalizing i l with
  | nil n => exact ⟨l, rfl, hl, fun _ => rfl⟩
  | cons e es t s hm hr _ ih =>
    simp only [List.length_cons] at hi
    obtain ⟨l1, e1, e2, _⟩ := add_spec hl e
    obtain ⟨l', h1, h2⟩ := ih (i + 1) (by omega) (by omega) l1 e2
    refine ⟨l', ?_, addsAll_cons e1 hl h2⟩
    rw [List.length_cons, readRows, if_neg (by omega)]
    rw [List.append_assoc]
    show (readRow w base i (t ++ (s ++ x)) >>= _) = _
    rw [readRow_spec hr hw base i hn hm (by omega), ok_bind]; dsimp only
    rw [e1, ok_bind, h1]

theorem readIndex_spec {w : Widths} (hw : w.w1 ≠ 0) {es : List XEntry} {ix : List Nat} {s : Bytes}
    (h : StreamBody w es ix s) (l : EntrySet) (hl : Distinct l) : ∃ l', readIndex w ix s l = .ok l' ∧ AddsAll es l l' := by
  induction h generalizing l with
  | nil s => exact ⟨l, rfl, hl, fun _ => rfl⟩
  | cons base es rest ix t s hr hn _ ih =>
    obtain ⟨l1, h1, h2⟩ := readRows_spec hw hr base 0 rfl (by omega) s l hl
    obtain ⟨l2, h3, h4⟩ := ih l1 h2.1
    exact ⟨l2, by rw [readIndex, h1, ok_bind]; exact h3, addsAll_append h2 h4⟩

/-! ### Writing -/

theorem foldl_widest (g : XEntry → Nat) (es : List XEntry) (m : Nat) :
    m ≤ es.foldl (fun m e => if g e > m then g e else m) m ∧
    (∀ e ∈ es, g e ≤ es.foldl (fun m e => if g e > m then g e else m) m) ∧
    ∀ b, m ≤ b → (∀ e ∈ es, g e ≤ b) → es.foldl (fun m e => if g e > m then g e else m) m ≤ b := by
  induction es generalizing m with
  | nil => exact ⟨Nat.le_refl _, by simp, fun b h _ => h⟩
  | cons e es ih =>
    rw [List.foldl_cons]
    generalize hv : (if g e > m then g e else m) = v
    have hv1 : m ≤ v ∧ g e ≤ v := by rw [← hv]; split <;> omega
    obtain ⟨h1, h2, h3⟩ := ih v
    refine ⟨by omega, ?_, ?_⟩
    · intro x hx
      rcases List.mem_cons.mp hx with rfl | hx
      · omega
      · exact h2 x hx
    · intro b hb he
      have := he e (by simp)
      exact h3 b (by rw [← hv]; split <;> omega) (fun x hx => he x (by simp [hx]))

theorem widen_spec (w : Widths) (es : List XEntry) :
    (widenFields w es).w1 = w.w1 ∧ w.w2 ≤ (widenFields w es).w2 ∧ w.w3 ≤ (widenFields w es).w3 ∧
    (∀ e ∈ es, contentWidth (secondField e) ≤ (widenFields w es).w2 ∧ contentWidth (thirdField e) ≤ (widenFields w es).w3) ∧
    ∀ b, w.w2 ≤ b → w.w3 ≤ b → (∀ e ∈ es, contentWidth (secondField e) ≤ b ∧ contentWidth (thirdField e) ≤ b) →
      (widenFields w es).w2 ≤ b ∧ (widenFields w es).w3 ≤ b := by
  obtain ⟨a1, a2, a3⟩ := foldl_widest (fun e => contentWidth (secondField e)) es 0
  obtain ⟨b1, b2, b3⟩ := foldl_widest (fun e => contentWidth (thirdField e)) es 0
  unfold widenFields
  refine ⟨rfl, by dsimp only; split <;> omega, by dsimp only; split <;> omega, ?_, ?_⟩
  · intro e he
    have := a2 e he; have := b2 e he
    dsimp only at *
    constructor <;> split <;> omega
  · intro b h2 h3 he
    have := a3 b (by omega) (fun e h => (he e h).1)
    have := b3 b (by omega) (fun e h => (he e h).2)
    dsimp only at *
    constructor <;> split <;> omega

/-- The row of an entry whose fields fit the widths. -/
theorem writeRow_spec {w : Widths} {e : XEntry} (h : StreamFitting e) (h1 : 1 ≤ w.w1) (h1' : w.w1 ≤ 8) (h2 : w.w2 ≤ 8)
    (h3 : w.w3 ≤ 8) (f2 : (secondField e).toNat < 256 ^ w.w2) (f3 : thirdField e < 256 ^ w.w3) :
    ∃ t, writeRow w e = .ok t ∧ ∀ m, StreamRow w { e with num := m } t := by
  have p1 : 256 ≤ 256 ^ w.w1 := by
    have := Nat.pow_le_pow_right (n := 256) (by decide) h1; simpa using this
  have ht : typeField e < 256 ^ w.w1 := by
    have : typeField e ≤ 2 := by unfold typeField; split <;> omega
    omega
  obtain ⟨a, a1, a2, a3⟩ := (C15_write_partial (typeField e) w.w1 h1').1 ht
  obtain ⟨c, c1, c2, c3⟩ := (C15_write_partial (thirdField e) w.w3 h3).1 f3
  have hs : (IntTy.u64.cast (secondField e)).toNat = (secondField e).toNat := by
    obtain ⟨n, g, k⟩ := e
    cases k <;> simp [StreamFitting, secondField] at h ⊢ <;> simp [IntTy.cast, IntTy.u64] <;> omega
  obtain ⟨b, b1, b2, b3⟩ := (C15_write_partial (IntTy.u64.cast (secondField e)).toNat w.w2 h2).1 (by rw [hs]; exact f2)
  refine ⟨a ++ b ++ c, by rw [writeRow, a1, ok_bind, b1, ok_bind, c1]; rfl, fun m => ?_⟩
  rw [hs] at b3
  have tf : ∀ k, typeField e = k → TypeField w.w1 k a := by
    rintro k rfl; exact ⟨a2, by rw [if_neg (by omega)]; exact a3⟩
  obtain ⟨n, g, k⟩ := e
  cases k with
  | free next =>
    obtain ⟨_, i2, i3⟩ := h
    exact .free m g next a b c (tf 0 rfl) ⟨b2, by simpa [secondField] using b3⟩ ⟨c2, c3⟩ (by dsimp at i3; omega) i2
  | used off =>
    obtain ⟨_, i2, i3⟩ := h
    dsimp at i3
    obtain ⟨o, rfl⟩ : ∃ o : Nat, off = o := ⟨off.toNat, by omega⟩
    exact .used m g o a b c (tf 1 rfl) ⟨b2, by simpa [secondField] using b3⟩ ⟨c2, c3⟩ (by omega) i2
  | compressed st ix =>
    obtain ⟨_, i2, i3⟩ := h
    dsimp at i3
    obtain ⟨rfl, i3, i4⟩ := i3
    exact .compressed m st ix a b c (tf 2 rfl) ⟨b2, by simpa [secondField] using b3⟩ ⟨c2, c3⟩ (by omega) i4

theorem renumberRun_id (es : List XEntry) (n : Nat) : renumberRun (n + 1) n es = es := by
  induction es generalizing n with
  | nil => rfl
  | cons e es ih =>
    rw [renumberRun]
    by_cases h : e.num = n + 1
    · rw [if_pos h, ← h, ih]
    · rw [if_neg h]

/-- Appending a row to a subsection. -/
theorem streamRows_snoc {w : Widths} {n : Nat} {es : List XEntry} {s : Bytes} (h : StreamRows w n es s) (e : XEntry) (t : Bytes)
    (hn : e.num = n + es.length) (hm : e.num < 18446744073709551616) (hr : StreamRow w e t) :
    StreamRows w n (es ++ [e]) (s ++ t) := by
  induction h with
  | nil n =>
    simp at hn; subst hn
    have := StreamRows.cons e [] t [] hm hr (.nil _)
    simpa using this
  | cons x es t' s' hx hr' _ ih =>
    rw [List.append_assoc]
    exact .cons x _ _ _ hx hr' (ih (by simp at hn; omega))

/-- The loop of `RecalculateContent`: `open` is the subsection under construction. -/
theorem contentLoop_spec {w : Widths} (h1 : 1 ≤ w.w1) (h1' : w.w1 ≤ 8) (h2 : w.w2 ≤ 8) (h3 : w.w3 ≤ 8) (es : List XEntry) :
    ∀ (idx prev : Nat) (opened : List XEntry) (so : Bytes), StreamRows w idx opened so → opened ≠ [] → idx + opened.length ≤ prev + 1 →
    opened.length + es.length ≤ 2147483648 →
    (∀ e ∈ es, StreamFitting e ∧ (secondField e).toNat < 256 ^ w.w2 ∧ thirdField e < 256 ^ w.w3) →
    es.Pairwise (fun a b => a.num < b.num) → (∀ e ∈ es, prev < e.num) → prev < 18446744073709551616 →
    ∃ ix body, contentLoop w es idx opened.length prev = .ok (ix, body) ∧
      StreamBody w (opened ++ renumberRun (idx + opened.length) prev es) ix (so ++ body) := by
  induction es with
  | nil =>
    intro idx prev opened so hr ho hp hlen _ _ _ _
    exact ⟨[idx, opened.length], [], rfl, .cons idx opened [] [] so [] hr (by simp at hlen; omega) (.nil _)⟩
  | cons e es ih =>
    intro idx prev opened so hr ho hp hlen hfit hs hgt hprev
    obtain ⟨he1, he2, he3⟩ := hfit e (by simp)
    have hgt' := hgt e (by simp)
    have hem : e.num < 18446744073709551616 := he1.1
    have hpos : opened.length ≠ 0 := by cases opened with
      | nil => exact absurd rfl ho
      | cons a b => simp
    obtain ⟨t, ht, hrow⟩ := writeRow_spec he1 h1 h1' h2 h3 he2 he3
    rw [List.pairwise_cons] at hs
    rw [List.length_cons] at hlen
    have hadd := safeAddition_idx prev 1 (by omega) (by omega)
    have hadd' : safeAddition IntTy.u64 IntTy.u64 IntTy.i32 (prev : Int) 1 = .ok ((prev + 1 : Nat) : Int) := hadd
    by_cases hc : e.num = prev + 1
    · obtain ⟨ix, body, i1, i2⟩ := ih idx e.num (opened ++ [{ e with num := idx + opened.length }]) (so ++ t)
        (streamRows_snoc hr _ t rfl (by dsimp only; omega) (hrow _)) (by simp) (by simp; omega) (by simp; omega)
        (fun x hx => hfit x (by simp [hx])) hs.2 (fun x hx => hs.1 x hx) hem
      refine ⟨ix, t ++ body, ?_, ?_⟩
      · rw [contentLoop, if_pos hpos, hadd', ok_bind, pure_bind, ht, ok_bind, if_neg (by simp [hc])]
        rw [List.length_append, List.length_singleton] at i1
        rw [i1]; rfl
      · rw [renumberRun, if_pos hc]
        simpa [Nat.add_assoc] using i2
    · obtain ⟨ix, body, i1, i2⟩ := ih e.num e.num [e] t
        (by have := StreamRows.cons e [] t [] hem (hrow e.num) (.nil _); simpa using this) (by simp) (by simp) (by simp; omega)
        (fun x hx => hfit x (by simp [hx])) hs.2 (fun x hx => hs.1 x hx) hem
      refine ⟨idx :: opened.length :: ix, t ++ body, ?_, ?_⟩
      · rw [contentLoop, if_pos hpos, hadd', ok_bind, pure_bind, ht, ok_bind, if_pos (by simp; omega)]
        rw [List.length_singleton] at i1
        rw [i1]; rfl
      · rw [renumberRun, if_neg hc]
        have hk : renumberRun (e.num + [e].length) e.num es = es := renumberRun_id es e.num
        rw [hk] at i2
        exact .cons idx opened _ _ so _ hr (by omega) i2

/-- The whole content. -/
theorem content_spec {w : Widths} (h1 : 1 ≤ w.w1) (h1' : w.w1 ≤ 8) (h2 : w.w2 ≤ 8) (h3 : w.w3 ≤ 8) (es : List XEntry)
    (hlen : es.length ≤ 2147483648)
    (hfit : ∀ e ∈ es, StreamFitting e ∧ (secondField e).toNat < 256 ^ w.w2 ∧ thirdField e < 256 ^ w.w3)
    (hs : es.Pairwise (fun a b => a.num < b.num)) :
    ∃ ix body, contentLoop w es 0 0 0 = .ok (ix, body) ∧ StreamBody w (firstRunFromZero es) ix body := by
  cases es with
  | nil => exact ⟨[0, 0], [], rfl, .cons 0 [] [] [] [] [] (.nil _) (by simp) (.nil _)⟩
  | cons e es =>
    obtain ⟨he1, he2, he3⟩ := hfit e (by simp)
    obtain ⟨t, ht, hrow⟩ := writeRow_spec he1 h1 h1' h2 h3 he2 he3
    rw [List.pairwise_cons] at hs
    rw [List.length_cons] at hlen
    obtain ⟨ix, body, i1, i2⟩ := contentLoop_spec h1 h1' h2 h3 es 0 e.num [{ e with num := 0 }] t
      (by have := StreamRows.cons { e with num := 0 } [] t [] (by simp) (hrow 0) (.nil _); simpa using this) (by simp)
      (by simp) (by simp; omega) (fun x hx => hfit x (by simp [hx])) hs.2 hs.1 he1.1
    refine ⟨ix, t ++ body, ?_, ?_⟩
    · rw [contentLoop, if_neg (by simp), pure_bind, ht, ok_bind, if_neg (by simp)]
      rw [List.length_singleton] at i1
      rw [i1]; rfl
    · simpa [firstRunFromZero] using i2

end VPdf
