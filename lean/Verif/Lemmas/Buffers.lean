import Verif.Spec.Buffers
/-
  Buffers and lists of buffers (C126): the counters agree with the handles and the lists.
-/
namespace VPdf
open Spec

namespace Buffers

/-- How often a buffer is in the lists. -/
def occ (lists : List (List Nat)) (i : Nat) : Nat := (lists.map (List.count i)).sum

theorem occ_append (L : List (List Nat)) (x : List Nat) (i : Nat) : occ (L ++ [x]) i = occ L i + x.count i := by
  simp [occ]

theorem occ_set (L : List (List Nat)) (l : Nat) (x y : List Nat) (i : Nat) (h : L[l]? = some y) :
    occ (L.set l x) i + y.count i = occ L i + x.count i := by
  induction L generalizing l with
  | nil => simp at h
  | cons a L ih =>
    cases l with
    | zero => simp at h; subst h; simp [occ]; omega
    | succ l =>
      have := ih l (by simpa using h)
      simp only [occ, List.set_cons_succ, List.map_cons, List.sum_cons] at this ⊢
      omega

theorem count_le_occ (L : List (List Nat)) (l : Nat) (y : List Nat) (i : Nat) (h : L[l]? = some y) : y.count i ≤ occ L i := by
  have := occ_set L l [] y i h
  simp at this
  omega

/-- What is left to read in a stream. -/
structure Rest (s : IStream) (rest : Bytes) : Prop where
  data : s.data.drop s.getPos = rest
  good : s.good = true ∨ rest = []

theorem rest_read {s : IStream} {rest : Bytes} (h : Rest s rest) (n : Nat) :
    (s.read n).1 = rest.take n ∧ Rest (s.read n).2 (rest.drop n) := by
  obtain ⟨h1, h2⟩ := h
  by_cases hg : s.good = true
  · have e : s.read n = if ((s.data.drop s.getPos).take n).length = n
        then ((s.data.drop s.getPos).take n, { s with getPos := s.getPos + n })
        else ((s.data.drop s.getPos).take n,
          { s with getPos := s.getPos + ((s.data.drop s.getPos).take n).length, eof := true, fail := true }) := by
      rw [IStream.read, IStream.rawRead, if_pos hg]
    rw [e, h1]
    split
    · refine ⟨rfl, ?_, .inl hg⟩
      change s.data.drop (s.getPos + n) = _
      rw [← h1, List.drop_drop]
    · rename_i hl
      have hn : rest.length ≤ n := by simp at hl; omega
      have hr : rest.drop n = [] := List.drop_eq_nil_of_le hn
      refine ⟨rfl, ?_, .inr hr⟩
      change s.data.drop (s.getPos + (rest.take n).length) = _
      rw [hr, List.take_of_length_le hn, ← List.drop_drop, h1, List.drop_length]
  · have hr : rest = [] := h2.resolve_left hg
    have e : s.read n = ([], { s with fail := true }) := by rw [IStream.read, IStream.rawRead, if_neg hg]
    rw [e]
    subst hr
    exact ⟨by simp, by simpa using h1, .inr (by simp)⟩

/-- The objects are as the view says; the counter of a buffer is the number of handles and of places in lists. -/
structure Matched (w : BufWorld) (v : BufferView) : Prop where
  bufs : ∀ i, w.bufs[i]? = (v.contents[i]?).map fun d => BufCell.mk d (v.held i + occ v.lists i)
  lists : ∀ l, w.lists[l]? = (v.lists[l]?).map fun x => BufList.mk x (v.listHeld l)
  bufLen : w.bufs.length = v.contents.length
  listLen : w.lists.length = v.lists.length
  fresh : ∀ i, v.contents.length ≤ i → v.held i + occ v.lists i = 0
  freshList : ∀ l, v.lists.length ≤ l → v.listHeld l = 0
  dead : ∀ l x, v.lists[l]? = some x → v.listHeld l = 0 → x = []
  streamLen : w.streams.length = v.unread.length
  streams : ∀ s x, w.streams[s]? = some x → Rest x (v.unread.getD s [])

theorem dropAll_same (w : BufWorld) (x : List Nat) : (w.dropAll x).lists = w.lists ∧ (w.dropAll x).streams = w.streams ∧
    (w.dropAll x).bufs.length = w.bufs.length := by
  induction x generalizing w with
  | nil => exact ⟨rfl, rfl, rfl⟩
  | cons b x ih =>
    obtain ⟨h1, h2, h3⟩ := ih (w.dropRef b)
    exact ⟨h1, h2, h3.trans (by simp [BufWorld.dropRef])⟩

theorem dropAll_bufs (w : BufWorld) (x : List Nat) (i : Nat) : (w.dropAll x).bufs[i]? =
    (w.bufs[i]?).map fun c : BufCell => { c with refs := c.refs - x.count i } := by
  induction x generalizing w with
  | nil => simp [BufWorld.dropAll]
  | cons b x ih =>
    rw [BufWorld.dropAll, ih, BufWorld.dropRef]
    dsimp only
    rw [List.getElem?_modify]
    cases w.bufs[i]? with
    | none => rfl
    | some c =>
      by_cases hb : b = i
      · simp [hb]; omega
      · simp [hb]

theorem onBuffer_has {w : BufWorld} {v : BufferView} (h : Matched w v) {b : Nat} (hb : v.Has b)
    (f : Bytes → BufWorld × Res BufAnswer) : w.onBuffer b f = f (v.contents.getD b []) := by
  obtain ⟨h1, h2⟩ := hb
  obtain ⟨r, hr⟩ : ∃ r, v.held b + occ v.lists b = r + 1 := ⟨v.held b + occ v.lists b - 1, by omega⟩
  have : w.bufs[b]? = some ⟨v.contents.getD b [], r + 1⟩ := by
    rw [h.bufs b, ← hr]
    simp [List.getElem?_eq_getElem h1]
  simp only [BufWorld.onBuffer, this]

theorem onBuffer_in {w : BufWorld} {v : BufferView} (h : Matched w v) {b : Nat} (hb : 0 < occ v.lists b)
    (f : Bytes → BufWorld × Res BufAnswer) : w.onBuffer b f = f (v.contents.getD b []) := by
  have h1 : b < v.contents.length := by
    rcases Nat.lt_or_ge b v.contents.length with h1 | h1
    · exact h1
    · have := h.fresh b h1; omega
  obtain ⟨r, hr⟩ : ∃ r, v.held b + occ v.lists b = r + 1 := ⟨v.held b + occ v.lists b - 1, by omega⟩
  have : w.bufs[b]? = some ⟨v.contents.getD b [], r + 1⟩ := by
    rw [h.bufs b, ← hr]
    simp [List.getElem?_eq_getElem h1]
  simp only [BufWorld.onBuffer, this]

theorem onList_has {w : BufWorld} {v : BufferView} (h : Matched w v) {l : Nat} (hl : v.HasList l)
    (f : List Nat → Nat → BufWorld × Res BufAnswer) : w.onList l f = f (v.lists.getD l []) (v.listHeld l - 1) := by
  obtain ⟨h1, h2⟩ := hl
  obtain ⟨r, hr⟩ : ∃ r, v.listHeld l = r + 1 := ⟨v.listHeld l - 1, by omega⟩
  have : w.lists[l]? = some ⟨v.lists.getD l [], r + 1⟩ := by
    rw [h.lists l, ← hr]
    simp [List.getElem?_eq_getElem h1]
  simp only [BufWorld.onList, this, hr, Nat.add_sub_cancel]

theorem setData_agrees {w : BufWorld} {v : BufferView} (h : Matched w v) (b : Nat) (d : Bytes) :
    Matched { w with bufs := w.bufs.modify b fun x => { x with data := d } } { v with contents := v.contents.set b d } := by
  obtain ⟨h1, h2, h3, h4, h5, h6, h7, h8, h9⟩ := h
  refine ⟨fun i => ?_, h2, by simpa using h3, h4, by simpa using h5, h6, h7, h8, h9⟩
  dsimp only
  rw [List.getElem?_modify, h1, List.getElem?_set]
  by_cases hb : b = i
  · subst hb
    by_cases hl : b < v.contents.length
    · simp [hl]
    · simp [hl]
  · simp [hb]

/-- A list gets other buffers: the counters follow. -/
theorem setItems_agrees {w w' : BufWorld} {v : BufferView} (h : Matched w v) {l : Nat} {x y : List Nat} (hl : v.lists[l]? = some y)
    (hh : 0 < v.listHeld l) (hlists : w'.lists = w.lists) (hstreams : w'.streams = w.streams)
    (hlen : w'.bufs.length = w.bufs.length)
    (hb : ∀ i, w'.bufs[i]? = (w.bufs[i]?).map fun c : BufCell => { c with refs := c.refs + x.count i - y.count i })
    (hx : ∀ i, 0 < x.count i → i < v.contents.length) :
    Matched (w'.setItems l x) { v with lists := v.lists.set l x } := by
  obtain ⟨h1, h2, h3, h4, h5, h6, h7, h8, h9⟩ := h
  have hlt : l < v.lists.length := by
    rcases Nat.lt_or_ge l v.lists.length with h | h
    · exact h
    · rw [List.getElem?_eq_none h] at hl; cases hl
  refine ⟨fun i => ?_, fun k => ?_, hlen.trans h3, ?_, fun i hi => ?_, ?_, fun k z hk hz => ?_, ?_, ?_⟩
  · have e := occ_set v.lists l x y i hl
    have e' := count_le_occ v.lists l y i hl
    change w'.bufs[i]? = _
    rw [hb, h1]
    cases v.contents[i]? with
    | none => rfl
    | some d =>
      simp only [Option.map_some, Option.some.injEq, BufCell.mk.injEq, true_and]
      omega
  · change (w'.lists.modify l _)[k]? = _
    rw [hlists, List.getElem?_modify, h2]
    dsimp only
    rw [List.getElem?_set]
    by_cases hk : l = k
    · subst hk
      simp [hlt]
    · simp [hk]
  · change (w'.lists.modify l _).length = (v.lists.set l x).length
    rw [hlists]
    simpa using h4
  · change v.held i + occ (v.lists.set l x) i = 0
    have hi : v.contents.length ≤ i := hi
    have e := occ_set v.lists l x y i hl
    have e' := h5 i hi
    have e'' : x.count i = 0 := by
      rcases Nat.eq_zero_or_pos (x.count i) with h | h
      · exact h
      · have := hx i h; omega
    omega
  · intro k hk
    exact h6 k (by simpa using hk)
  · dsimp only at hk hz
    rw [List.getElem?_set] at hk
    by_cases hlk : l = k
    · subst hlk; omega
    · rw [if_neg hlk] at hk
      exact h7 k z hk hz
  · change w'.streams.length = _
    rw [hstreams]; exact h8
  · intro s z hs
    exact h9 s z (by rw [← hstreams]; exact hs)

end Buffers
end VPdf
