import Verif.Lemmas.Buffers
/-
  C126: buffers, lists of buffers, and streams made from buffers.
-/
namespace VPdf
open Spec

namespace Buffers

theorem getD_some {α : Type} {l : List α} {i : Nat} (h : i < l.length) (d : α) : l[i]? = some (l.getD i d) := by
  simp [List.getElem?_eq_getElem h]

theorem insertIdx_parts (X : List Nat) (i b : Nat) (h : i ≤ X.length) : X.insertIdx i b = X.take i ++ b :: X.drop i := by
  induction X generalizing i with
  | nil =>
    have : i = 0 := by simpa using h
    subst this; rfl
  | cons a X ih =>
    cases i with
    | zero => rfl
    | succ i => rw [List.insertIdx_succ_cons, ih i (by simpa using h)]; rfl

theorem count_lt {w : BufWorld} {v : BufferView} (h : Matched w v) {l i : Nat} {y : List Nat} (hl : v.lists[l]? = some y)
    (hi : 0 < y.count i) : i < v.contents.length := by
  rcases Nat.lt_or_ge i v.contents.length with h1 | h1
  · exact h1
  · have := h.fresh i h1
    have := count_le_occ v.lists l y i hl
    omega

theorem addRef_matched {w : BufWorld} {v : BufferView} (h : Matched w v) {b : Nat} (hb : b < v.contents.length) :
    Matched (w.addRef b) { v with held := BufferView.plus v.held b } := by
  obtain ⟨h1, h2, h3, h4, h5, h6, h7, h8, h9⟩ := h
  refine ⟨fun i => ?_, h2, by simpa [BufWorld.addRef] using h3, h4, fun i hi => ?_, h6, h7, h8, h9⟩
  · simp only [BufWorld.addRef, List.getElem?_modify, h1]
    cases v.contents[i]? with
    | none => rfl
    | some d =>
      by_cases e : b = i
      · subst e; simp [BufferView.plus]; omega
      · have : ¬ i = b := fun h => e h.symm
        simp [BufferView.plus, e, this]
  · have hi : v.contents.length ≤ i := hi
    have := h5 i hi
    have e : ¬ i = b := by omega
    simpa [BufferView.plus, e] using this

theorem step_agrees {w : BufWorld} {v : BufferView} (h : Matched w v) (c : BufCall) (hc : v.Correct c) :
    (w.step c).2 = v.answer c ∧ Matched (w.step c).1 (v.next c) := by
  cases c with
  | make d =>
    obtain ⟨h1, h2, h3, h4, h5, h6, h7, h8, h9⟩ := h
    have e0 := h5 v.contents.length (Nat.le_refl _)
    refine ⟨by simp [BufWorld.step, BufferView.answer, h3], fun i => ?_, h2, ?_, h4, fun i hi => ?_, h6, h7, h8, h9⟩
    · change (w.bufs ++ [_])[i]? = ((v.contents ++ [d])[i]?).map fun d => BufCell.mk d (BufferView.plus _ _ _ + _)
      rcases Nat.lt_trichotomy i v.contents.length with hi | hi | hi
      · have e : ¬ i = v.contents.length := by omega
        rw [List.getElem?_append_left (by omega), List.getElem?_append_left hi, h1]
        simp [BufferView.plus, e, BufferView.next]
      · subst hi
        rw [← h3, List.getElem?_concat_length, h3, List.getElem?_concat_length]
        simp only [Option.map_some, BufferView.plus, if_true, Option.some.injEq, BufCell.mk.injEq, true_and]
        change 1 = v.held v.contents.length + 1 + occ v.lists v.contents.length
        omega
      · rw [List.getElem?_eq_none (by simp; omega), List.getElem?_eq_none (by simp; omega)]; rfl
    · change (w.bufs ++ [_]).length = (v.contents ++ [d]).length
      simp [h3]
    · have hi : (v.contents ++ [d]).length ≤ i := hi
      simp at hi
      have := h5 i (by omega)
      have e : ¬ i = v.contents.length := by omega
      simpa [BufferView.next, BufferView.plus, e] using this
  | getData b => simp only [BufWorld.step]; rw [onBuffer_has h hc]; exact ⟨rfl, h⟩
  | setData b d => simp only [BufWorld.step]; rw [onBuffer_has h hc]; exact ⟨rfl, setData_agrees h b d⟩
  | setFrom b c =>
    obtain ⟨c1, c2, c3⟩ := hc
    simp only [BufWorld.step]
    rw [onBuffer_has h c2, onBuffer_has h c1, if_neg c3]
    exact ⟨rfl, setData_agrees h b _⟩
  | copyTo b room =>
    simp only [BufWorld.step]; rw [onBuffer_has h hc]
    refine ⟨?_, h⟩
    by_cases e : (v.contents.getD b []).length ≤ room
    · simp only [BufferView.answer, if_pos e, if_neg (show ¬ (v.contents.getD b []).length > room by omega)]
    · simp only [BufferView.answer, if_neg e, if_pos (show (v.contents.getD b []).length > room by omega)]
  | equals b c => simp only [BufWorld.step]; rw [onBuffer_has h hc.1, onBuffer_has h hc.2]; exact ⟨rfl, h⟩
  | releaseBuffer b =>
    simp only [BufWorld.step]; rw [onBuffer_has h hc]
    obtain ⟨c1, c2⟩ := hc
    obtain ⟨h1, h2, h3, h4, h5, h6, h7, h8, h9⟩ := h
    refine ⟨rfl, fun i => ?_, h2, by simpa [BufWorld.dropRef, BufferView.next] using h3, h4, fun i hi => ?_, h6, h7, h8, h9⟩
    · simp only [BufWorld.dropRef, List.getElem?_modify, h1, BufferView.next]
      cases v.contents[i]? with
      | none => rfl
      | some d =>
        by_cases e : b = i
        · subst e; simp [BufferView.minus]; omega
        · have : ¬ i = b := fun h => e h.symm
          simp [BufferView.minus, e, this]
    · have := h5 i hi
      have e : ¬ i = b := by have : v.contents.length ≤ i := hi; omega
      simpa [BufferView.next, BufferView.minus, e] using this
  | newList =>
    obtain ⟨h1, h2, h3, h4, h5, h6, h7, h8, h9⟩ := h
    have e0 := h6 v.lists.length (Nat.le_refl _)
    have ho : ∀ i, occ (v.lists ++ [[]]) i = occ v.lists i := by intro i; simp [occ_append]
    refine ⟨by simp [BufWorld.step, BufferView.answer, h4], fun i => ?_, fun l => ?_, h3, ?_, fun i hi => ?_, fun l hl => ?_,
      fun l x hl hx => ?_, h8, h9⟩
    · simp only [BufWorld.step, BufferView.next, ho]; exact h1 i
    · change (w.lists ++ [_])[l]? = ((v.lists ++ [[]])[l]?).map fun x => BufList.mk x (BufferView.plus _ _ _)
      rcases Nat.lt_trichotomy l v.lists.length with hi | hi | hi
      · have e : ¬ l = v.lists.length := by omega
        rw [List.getElem?_append_left (by omega), List.getElem?_append_left hi, h2]
        simp [BufferView.plus, e]
      · subst hi
        rw [← h4, List.getElem?_concat_length, h4, List.getElem?_concat_length]
        simp [BufferView.plus, e0]
      · rw [List.getElem?_eq_none (by simp; omega), List.getElem?_eq_none (by simp; omega)]; rfl
    · change (w.lists ++ [_]).length = (v.lists ++ [[]]).length
      simp [h4]
    · simp only [BufferView.next, ho]; exact h5 i hi
    · have hl : (v.lists ++ [[]]).length ≤ l := hl
      simp at hl
      have e : ¬ l = v.lists.length := by omega
      simp only [BufferView.next, BufferView.plus, if_neg e]
      exact h6 l (by omega)
    · change (v.lists ++ [[]])[l]? = some x at hl
      change BufferView.plus _ _ _ = 0 at hx
      rcases Nat.lt_trichotomy l v.lists.length with hi | hi | hi
      · have e : ¬ l = v.lists.length := by omega
        rw [List.getElem?_append_left hi] at hl
        rw [BufferView.plus, if_neg e] at hx
        exact h7 l x hl hx
      · subst hi; simp [BufferView.plus] at hx
      · rw [List.getElem?_eq_none (by simp; omega)] at hl; cases hl
  | size l => simp only [BufWorld.step]; rw [onList_has h hc]; exact ⟨rfl, h⟩
  | item l i =>
    have hX := getD_some hc.1 []
    simp only [BufWorld.step]; rw [onList_has h hc]
    simp only [BufferView.answer, BufferView.next]
    generalize v.lists.getD l [] = X at hX
    cases hi : X[i]? with
    | none => exact ⟨rfl, h⟩
    | some b =>
      have hm : 0 < X.count b := List.count_pos_iff.2 (List.mem_of_getElem? hi)
      have ho : 0 < occ v.lists b := Nat.lt_of_lt_of_le hm (count_le_occ v.lists l X b hX)
      dsimp only
      rw [onBuffer_in h ho]
      exact ⟨rfl, addRef_matched h (count_lt h hX hm)⟩
  | append l b =>
    obtain ⟨c1, c2⟩ := hc
    have hX := getD_some c1.1 []
    simp only [BufWorld.step]; rw [onList_has h c1, onBuffer_has h c2]
    simp only [BufferView.answer, BufferView.next]
    generalize v.lists.getD l [] = X at hX
    refine ⟨trivial, setItems_agrees h hX c1.2 rfl rfl (by simp [BufWorld.addRef]) (fun i => ?_) fun i hi => ?_⟩
    · simp only [BufWorld.addRef, List.getElem?_modify]
      cases w.bufs[i]? with
      | none => rfl
      | some c =>
        by_cases e : b = i
        · subst e; simp; omega
        · simp [e]
    · by_cases e : b = i
      · subst e; exact c2.1
      · exact count_lt h hX (by simpa [e] using hi)
  | insert l i b =>
    obtain ⟨c1, c2, c3⟩ := hc
    have hX := getD_some c1.1 []
    simp only [BufWorld.step]; rw [onList_has h c1, onBuffer_has h c2]
    simp only [BufferView.answer, BufferView.next]
    generalize v.lists.getD l [] = X at hX c3
    rw [if_neg (show ¬ X.length < i by omega)]
    have hins : X.insertIdx i b = X.take i ++ b :: X.drop i := insertIdx_parts X i b c3
    have hcount : ∀ j, (X.take i ++ b :: X.drop i).count j = X.count j + if b = j then 1 else 0 := by
      intro j
      have : X.count j = (X.take i).count j + (X.drop i).count j := by
        rw [← List.count_append, List.take_append_drop]
      rw [List.count_append, List.count_cons, this]
      by_cases e : b = j <;> simp [e] <;> omega
    rw [hins]
    refine ⟨rfl, setItems_agrees h hX c1.2 rfl rfl (by simp [BufWorld.addRef]) (fun j => ?_) fun j hj => ?_⟩
    · rw [hcount]
      simp only [BufWorld.addRef, List.getElem?_modify]
      cases w.bufs[j]? with
      | none => rfl
      | some c =>
        by_cases e : b = j
        · subst e; simp; omega
        · simp [e]
    · rw [hcount] at hj
      by_cases e : b = j
      · subst e; exact c2.1
      · exact count_lt h hX (by simpa [e] using hj)
  | remove l i =>
    obtain ⟨c1, c3⟩ := hc
    have hX := getD_some c1.1 []
    simp only [BufWorld.step]; rw [onList_has h c1]
    simp only [BufferView.answer, BufferView.next]
    generalize v.lists.getD l [] = X at hX c3
    rw [if_neg (show ¬ X.length < i by omega)]
    cases hi : X[i]? with
    | none =>
      have hlen : X.length ≤ i := List.getElem?_eq_none_iff.1 hi
      have e : v.lists.set l (X.eraseIdx i) = v.lists := by
        rw [List.eraseIdx_of_length_le hlen]
        apply List.ext_getElem?
        intro k
        rw [List.getElem?_set]
        by_cases hk : l = k
        · subst hk; rw [if_pos rfl, if_pos c1.1, hX]
        · rw [if_neg hk]
      rw [if_neg (show ¬ i < X.length by omega), e]
      exact ⟨rfl, h⟩
    | some b =>
      have hlen : i < X.length := by
        rcases Nat.lt_or_ge i X.length with h | h
        · exact h
        · rw [List.getElem?_eq_none h] at hi; cases hi
      have hb : X[i] = b := by
        rw [List.getElem?_eq_getElem hlen] at hi
        exact Option.some.inj hi
      have hcount : ∀ j, X.count j = (X.eraseIdx i).count j + if b = j then 1 else 0 := by
        intro j
        have e1 : X = X.take i ++ b :: X.drop (i + 1) := by
          rw [← hb, List.getElem_cons_drop, List.take_append_drop]
        conv => lhs; rw [e1]
        rw [List.eraseIdx_eq_take_drop_succ, List.count_append, List.count_append, List.count_cons]
        by_cases e : b = j <;> simp [e] <;> omega
      rw [if_pos hlen]
      refine ⟨rfl, setItems_agrees h hX c1.2 rfl rfl (by simp [BufWorld.dropRef]) (fun j => ?_) fun j hj => ?_⟩
      · rw [hcount]
        simp only [BufWorld.dropRef, List.getElem?_modify]
        cases w.bufs[j]? with
        | none => rfl
        | some c =>
          by_cases e : b = j
          · subst e; simp; omega
          · simp [e]
      · exact count_lt h hX (by rw [hcount]; omega)
  | releaseList l =>
    have hX := getD_some hc.1 []
    have hpos : 0 < v.listHeld l := hc.2
    simp only [BufWorld.step]; rw [onList_has h hc]
    have hrel : ∀ k, (w.lists.modify l fun y => { y with refs := v.listHeld l - 1 })[k]? =
        (v.lists[k]?).map fun x => BufList.mk x (BufferView.minus v.listHeld l k) := by
      intro k
      rw [List.getElem?_modify, h.lists]
      cases v.lists[k]? with
      | none => rfl
      | some x =>
        by_cases e : l = k
        · subst e; simp [BufferView.minus]
        · have : ¬ k = l := fun h => e h.symm
          simp [BufferView.minus, e, this]
    have hf : ∀ k, v.lists.length ≤ k → BufferView.minus v.listHeld l k = 0 := by
      intro k hk
      have := h.freshList k hk
      simp only [BufferView.minus]
      split <;> omega
    obtain ⟨h1, h2, h3, h4, h5, h6, h7, h8, h9⟩ := h
    by_cases hlast : v.listHeld l = 1
    · rw [if_pos (show v.listHeld l - 1 = 0 by omega)]
      simp only [BufferView.answer, BufferView.next, if_pos hlast]
      generalize v.lists.getD l [] = X at hX
      obtain ⟨d1, d2, d3⟩ := dropAll_same { w with lists := w.lists.modify l fun y => { y with refs := v.listHeld l - 1 } } X
      refine ⟨trivial, fun i => ?_, fun k => ?_, d3.trans h3, ?_, fun i hi => ?_, fun k hk => ?_, fun k x hk hx => ?_, ?_, ?_⟩
      · have e := occ_set v.lists l [] X i hX
        simp at e
        change (BufWorld.dropAll _ X).bufs[i]? = _
        rw [dropAll_bufs]
        dsimp only
        rw [h1]
        cases v.contents[i]? with
        | none => rfl
        | some d => simp only [Option.map_some, Option.some.injEq, BufCell.mk.injEq, true_and]; omega
      · change ((BufWorld.dropAll _ X).lists.modify l _)[k]? = _
        rw [d1]
        dsimp only
        rw [List.getElem?_modify, hrel, List.getElem?_set]
        by_cases e : l = k
        · subst e
          simp [hc.1]
        · simp [e]
      · change ((BufWorld.dropAll _ X).lists.modify l _).length = (v.lists.set l []).length
        rw [d1]
        simpa using h4
      · change v.held i + occ (v.lists.set l []) i = 0
        have e := occ_set v.lists l [] X i hX
        have := h5 i hi
        simp at e
        omega
      · exact hf k (by simpa using hk)
      · dsimp only at hk hx
        rw [List.getElem?_set] at hk
        by_cases e : l = k
        · subst e
          rw [if_pos rfl, if_pos hc.1] at hk
          exact (Option.some.inj hk).symm
        · rw [if_neg e] at hk
          have e' : ¬ k = l := fun h => e h.symm
          exact h7 k x hk (by simpa [BufferView.minus, e'] using hx)
      · change (BufWorld.dropAll _ X).streams.length = _
        rw [d2]; exact h8
      · intro s z hs
        exact h9 s z (by rw [← hs]; change _ = (BufWorld.dropAll _ X).streams[s]?; rw [d2])
    · rw [if_neg (show ¬ v.listHeld l - 1 = 0 by omega)]
      simp only [BufferView.answer, BufferView.next, if_neg hlast]
      refine ⟨trivial, h1, hrel, h3, by simpa using h4, h5, hf, fun k x hk hx => ?_, h8, h9⟩
      dsimp only at hk hx
      by_cases e : k = l
      · subst e; simp [BufferView.minus] at hx; omega
      · exact h7 k x hk (by simpa [BufferView.minus, e] using hx)
  | stream b =>
    simp only [BufWorld.step]; rw [onBuffer_has h hc]
    obtain ⟨h1, h2, h3, h4, h5, h6, h7, h8, h9⟩ := h
    refine ⟨by simp [BufferView.answer, h8], h1, h2, h3, h4, h5, h6, h7, ?_, fun s x hs => ?_⟩
    · change (w.streams ++ [_]).length = (v.unread ++ [_]).length
      simp [h8]
    · change (w.streams ++ [_])[s]? = some x at hs
      change Rest x ((v.unread ++ [_]).getD s [])
      rcases Nat.lt_trichotomy s v.unread.length with hi | hi | hi
      · rw [List.getElem?_append_left (by omega)] at hs
        have := h9 s x hs
        rw [List.getD_eq_getElem?_getD, List.getElem?_append_left hi, ← List.getD_eq_getElem?_getD]
        exact this
      · subst hi
        rw [← h8, List.getElem?_concat_length] at hs
        obtain rfl := Option.some.inj hs
        have e : ∀ d : Bytes, (v.unread ++ [d]).getD v.unread.length [] = d := by
          intro d; rw [List.getD_eq_getElem?_getD, List.getElem?_concat_length]; rfl
        rw [e]
        exact ⟨rfl, .inl rfl⟩
      · rw [List.getElem?_eq_none (by simp; omega)] at hs; cases hs
  | read s n =>
    have hc : s < v.unread.length := hc
    obtain ⟨h1, h2, h3, h4, h5, h6, h7, h8, h9⟩ := h
    have hs : s < w.streams.length := by omega
    obtain ⟨r1, r2⟩ := rest_read (h9 s w.streams[s] (List.getElem?_eq_getElem hs)) n
    simp only [BufWorld.step, List.getElem?_eq_getElem hs]
    refine ⟨by rw [r1]; rfl, h1, h2, h3, h4, h5, h6, h7, by simpa [BufferView.next] using h8, fun t x ht => ?_⟩
    change (w.streams.set s _)[t]? = some x at ht
    change Rest x ((v.unread.set s _).getD t [])
    rw [List.getElem?_set] at ht
    rw [List.getD_eq_getElem?_getD, List.getElem?_set]
    by_cases e : s = t
    · subst e
      rw [if_pos rfl, if_pos hs] at ht
      rw [if_pos rfl, if_pos hc, ← Option.some.inj ht]
      exact r2
    · rw [if_neg e] at ht ⊢
      rw [← List.getD_eq_getElem?_getD]
      exact h9 t x ht

theorem run_agrees (calls : List BufCall) : ∀ (w : BufWorld) (v : BufferView), Matched w v → v.AllCorrect calls →
    (w.run calls).1 = v.answersAll calls ∧ Matched (w.run calls).2 (v.final calls) := by
  induction calls with
  | nil => intro w v h _; exact ⟨rfl, h⟩
  | cons c cs ih =>
    intro w v h hc
    obtain ⟨e1, e2⟩ := step_agrees h c hc.1
    obtain ⟨r1, r2⟩ := ih _ _ e2 hc.2
    refine ⟨?_, r2⟩
    change (w.step c).2 :: _ = v.answer c :: _
    rw [e1, r1]

theorem start_agrees : Matched .start .start :=
  ⟨fun i => by simp [BufWorld.start, BufferView.start], fun i => by simp [BufWorld.start, BufferView.start], rfl, rfl,
    fun _ _ => rfl, fun _ _ => rfl, fun l x h => by simp [BufferView.start] at h, rfl,
    fun s x h => by simp [BufWorld.start] at h⟩

end Buffers

/-- **C126** (for programs that use what they hold, insert and remove at positions up to the end, and set no buffer from its own
memory; otherwise the claim is false, see the counterexamples).  For every history of calls, every call answers what contents and
sequences of them give: a list has the buffers that were put into it, in their order; whoever has a handle of a buffer sees what
was set through any other handle, also when the buffer was released by the one who has put it into a list; positions behind a list
are refused; nothing is copied into too little room; and a stream shows what its buffer had when it was made. -/
theorem C126_history_partial (calls : List BufCall) (h : BufferView.start.AllCorrect calls) :
    (BufWorld.start.run calls).1 = BufferView.start.answersAll calls :=
  (Buffers.run_agrees calls _ _ Buffers.start_agrees h).1

/-- Two buffers in a list, one of them released, changed through the handle that the list gives; a stream; a list that is gone. -/
def sampleBuffers : List BufCall :=
  [.make (b! "one"), .make (b! "two"), .newList, .append 0 0, .insert 0 0 1, .releaseBuffer 0, .item 0 1, .stream 0,
   .setData 0 (b! "three"), .setFrom 1 0, .equals 0 1, .read 0 2, .read 0 9, .copyTo 0 4, .copyTo 0 5, .remove 0 2, .remove 0 0,
   .size 0, .item 0 7, .releaseList 0, .getData 0, .releaseBuffer 0, .releaseBuffer 1]

theorem sampleBuffers_correct : BufferView.start.AllCorrect sampleBuffers := by
  simp [sampleBuffers, BufferView.AllCorrect, BufferView.Correct, BufferView.next, BufferView.start, BufferView.Has,
    BufferView.HasList, BufferView.plus, BufferView.minus]

example : (BufWorld.start.run sampleBuffers).1 =
    [.ok (.handle 0), .ok (.handle 1), .ok (.handle 0), .ok .done, .ok .done, .ok .done, .ok (.handle 0), .ok (.handle 0),
     .ok .done, .ok .done, .ok (.yes true), .ok (.data (b! "on")), .ok (.data (b! "e")), .ok .noRoom, .ok (.data (b! "three")),
     .ok .absent, .ok .done, .ok (.count 1), .error .conversion, .ok .done, .ok (.data (b! "three")), .ok .done, .ok .done] := by
  decide +kernel

/-- **C126**: nothing is undefined in a correct program. -/
theorem C126_defined_partial (calls : List BufCall) (h : BufferView.start.AllCorrect calls) :
    .error .ub ∉ (BufWorld.start.run calls).1 := by
  rw [C126_history_partial calls h]
  clear h
  generalize BufferView.start = v
  induction calls generalizing v with
  | nil => simp [BufferView.answersAll]
  | cons c cs ih =>
    rw [BufferView.answersAll, List.mem_cons, not_or]
    refine ⟨fun e => ?_, ih _⟩
    cases c <;> simp only [BufferView.answer] at e <;> try (cases e)
    split at e <;> cases e

/-- **C126**: a buffer is there exactly as long as the program holds a handle of it or a list has it. -/
theorem C126_lifetime (calls : List BufCall) (h : BufferView.start.AllCorrect calls) (b : Nat)
    (hb : b < (BufferView.start.final calls).contents.length) :
    ((BufWorld.start.run calls).2.step (.getData b)).2 ≠ .error .ub ↔
      0 < (BufferView.start.final calls).held b ∨ ∃ l ∈ (BufferView.start.final calls).lists, b ∈ l := by
  have ha := (Buffers.run_agrees calls _ _ Buffers.start_agrees h).2
  generalize (BufWorld.start.run calls).2 = w at ha
  generalize BufferView.start.final calls = v at ha hb
  have hocc : 0 < Buffers.occ v.lists b ↔ ∃ l ∈ v.lists, b ∈ l := by
    generalize v.lists = L
    induction L with
    | nil => simp [Buffers.occ]
    | cons a L ih =>
      have e : Buffers.occ (a :: L) b = a.count b + Buffers.occ L b := rfl
      rw [e]
      constructor
      · intro h
        rcases Nat.eq_zero_or_pos (a.count b) with h0 | h0
        · obtain ⟨l, hl, hm⟩ := ih.1 (by omega)
          exact ⟨l, List.mem_cons_of_mem _ hl, hm⟩
        · exact ⟨a, List.mem_cons_self, List.count_pos_iff.1 h0⟩
      · rintro ⟨l, hl, hm⟩
        rcases List.mem_cons.1 hl with rfl | hl
        · have := List.count_pos_iff.2 hm; omega
        · have := ih.2 ⟨l, hl, hm⟩; omega
  have hw : w.bufs[b]? = some ⟨v.contents[b], v.held b + Buffers.occ v.lists b⟩ := by
    rw [ha.bufs b, List.getElem?_eq_getElem hb]; rfl
  rw [← hocc]
  cases hr : v.held b + Buffers.occ v.lists b with
  | zero =>
    rw [hr] at hw
    have e : w.step (.getData b) = (w, .error .ub) := by simp only [BufWorld.step, BufWorld.onBuffer, hw]
    rw [e]
    constructor
    · intro h; exact absurd rfl h
    · omega
  | succ r =>
    rw [hr] at hw
    have e : w.step (.getData b) = (w, .ok (.data v.contents[b])) := by simp only [BufWorld.step, BufWorld.onBuffer, hw]
    rw [e]
    exact ⟨fun _ => by omega, fun _ h => by cases h⟩

/-- **C126**: a program that has released all its handles has left nothing behind: every buffer and every list is gone. -/
theorem C126_no_leak (calls : List BufCall) (h : BufferView.start.AllCorrect calls)
    (hb : ∀ b, (BufferView.start.final calls).held b = 0) (hl : ∀ l, (BufferView.start.final calls).listHeld l = 0) :
    (∀ x ∈ (BufWorld.start.run calls).2.bufs, x.refs = 0) ∧ ∀ x ∈ (BufWorld.start.run calls).2.lists, x.refs = 0 := by
  have ha := (Buffers.run_agrees calls _ _ Buffers.start_agrees h).2
  generalize (BufWorld.start.run calls).2 = w at ha
  generalize BufferView.start.final calls = v at ha hb hl
  have hocc : ∀ b, Buffers.occ v.lists b = 0 := by
    intro b
    have hall : ∀ x ∈ v.lists, x = [] := by
      intro x hx
      obtain ⟨l, hlt, rfl⟩ := List.mem_iff_getElem.1 hx
      exact ha.dead l _ (List.getElem?_eq_getElem hlt) (hl l)
    generalize v.lists = L at hall
    induction L with
    | nil => rfl
    | cons a L ih =>
      have e : Buffers.occ (a :: L) b = a.count b + Buffers.occ L b := rfl
      rw [e, hall a List.mem_cons_self, ih fun x hx => hall x (List.mem_cons_of_mem _ hx)]
      rfl
  constructor
  · intro x hx
    obtain ⟨i, hi, rfl⟩ := List.mem_iff_getElem.1 hx
    have e := ha.bufs i
    rw [List.getElem?_eq_getElem hi, hb i, hocc i] at e
    cases hc : v.contents[i]? with
    | none => rw [hc] at e; cases e
    | some d => rw [hc] at e; rw [Option.some.inj e]
  · intro x hx
    obtain ⟨i, hi, rfl⟩ := List.mem_iff_getElem.1 hx
    have e := ha.lists i
    rw [List.getElem?_eq_getElem hi, hl i] at e
    cases hc : v.lists[i]? with
    | none => rw [hc] at e; cases e
    | some d => rw [hc] at e; rw [Option.some.inj e]

example : (∀ b, (BufferView.start.final sampleBuffers).held b = 0) ∧ ∀ l, (BufferView.start.final sampleBuffers).listHeld l = 0 := by
  constructor <;> intro b <;> by_cases h0 : b = 0 <;> by_cases h1 : b = 1 <;>
    simp [sampleBuffers, BufferView.final, BufferView.next, BufferView.start, BufferView.plus, BufferView.minus, h0, h1]

/-- The claim **C126** is false: for every list, inserting and removing at a position behind its end is undefined instead of being
refused, although reading there is refused. -/
theorem C126_position_counterexample (w : BufWorld) (l i n b : Nat) (d : Bytes) (hl : (w.step (.size l)).2 = .ok (.count n))
    (hb : (w.step (.getData b)).2 = .ok (.data d)) (hi : n < i) :
    (w.step (.item l i)).2 = .error .conversion ∧ (w.step (.insert l i b)).2 = .error .ub ∧
      (w.step (.remove l i)).2 = .error .ub := by
  simp only [BufWorld.step, BufWorld.onList, BufWorld.onBuffer] at hl hb ⊢
  split at hl
  · rename_i x r hx
    simp only [Except.ok.injEq, BufAnswer.count.injEq] at hl
    subst hl
    have hn : x[i]? = none := List.getElem?_eq_none (by omega)
    split at hb
    · simp [hi, hn]
    · cases hb
  · cases hl

example : ((BufWorld.start.run [.make (b! "x"), .newList, .append 0 0]).2.step (.size 0)).2 = .ok (.count 1) := by decide +kernel

/-- The claim **C126** is false: setting any buffer to the data and size it reports itself is undefined. -/
theorem C126_self_counterexample (w : BufWorld) (b : Nat) (d : Bytes) (hb : (w.step (.getData b)).2 = .ok (.data d)) :
    (w.step (.setFrom b b)).2 = .error .ub := by
  simp only [BufWorld.step, BufWorld.onBuffer] at hb ⊢
  split at hb
  · simp
  · cases hb

example : ((BufWorld.start.run [.make (b! "x")]).2.step (.getData 0)).2 = .ok (.data (b! "x")) := by decide +kernel

end VPdf
