import Verif.Spec.Attributes
import Verif.Lemmas.ParseTerm
/-
  C108: attributes of objects.
-/
namespace VPdf

/-! ### Lists -/

theorem attrFind_insert_same {m : AttrList} {t : AttrType} (h : attrFind m t = none) (i : Nat) :
    attrFind (attrInsert m t i) t = some i := by
  simp [attrInsert, attrContains, h]
  simp [attrFind]

theorem attrFind_insert_kept {m : AttrList} {t : AttrType} {j : Nat} (h : attrFind m t = some j) (i : Nat) :
    attrFind (attrInsert m t i) t = some j := by
  simp [attrInsert, attrContains, h]

theorem attrFind_insert_other {m : AttrList} {t t' : AttrType} (h : t' ≠ t) (i : Nat) :
    attrFind (attrInsert m t' i) t = attrFind m t := by
  unfold attrInsert
  split
  · rfl
  · simp [attrFind, h]

theorem attrFind_remove_same (m : AttrList) (t : AttrType) : attrFind (attrRemove m t).1 t = none := by
  unfold attrRemove
  split
  · simp [attrFind, List.find?_eq_none]
  · rename_i h; simpa [attrContains] using h

theorem attrFind_remove_other {m : AttrList} {t t' : AttrType} (h : t' ≠ t) :
    attrFind (attrRemove m t').1 t = attrFind m t := by
  unfold attrRemove
  split
  · simp only [attrFind, List.find?_filter]
    congr 1
    congr 1
    funext p
    by_cases e : p.1 = t
    · simp [e, h.symm]
    · simp [e]
  · rfl

/-- What list `l` has under type `t`. -/
def heldAt (w : AttrWorld) (l : Nat) (t : AttrType) : Option Nat := (w.lists[l]?).bind (fun m => attrFind m t)

theorem get_iff {w : AttrWorld} {l : Nat} {t : AttrType} {i : Nat} :
    (attrCall w (.get l t)).2 = .handle i ↔ heldAt w l t = some i := by
  simp only [attrCall, callGet, heldAt]
  cases hl : w.lists[l]? with
  | none => simp
  | some m => simp only [attrGet, Option.bind_some]; cases attrFind m t <;> simp

theorem contains_iff {w : AttrWorld} {l : Nat} {t : AttrType} (hl : l < w.lists.length) :
    (attrCall w (.contains l t)).2 = .yes (heldAt w l t).isSome := by
  simp [attrCall, heldAt, attrContains, hl]

/-! ### One call -/

/-- Calls make no list and no attribute disappear. -/
theorem call_grows (w : AttrWorld) (c : AttrCall) :
    w.lists.length ≤ (attrCall w c).1.lists.length ∧ w.cells.length ≤ (attrCall w c).1.cells.length := by
  cases c <;> simp only [attrCall, callAdd, callRemove, putList, cloneList]
  all_goals (repeat' split) <;> simp

/-- Types of attributes never change. -/
theorem call_type {w : AttrWorld} {i : Nat} (hi : i < w.cells.length) (c : AttrCall) (t : AttrType) :
    Spec.AttrHasType (attrCall w c).1 i t ↔ Spec.AttrHasType w i t := by
  unfold Spec.AttrHasType
  cases c with
  | create a => simp [attrCall, List.getElem?_append_left hi]
  | change j f =>
    simp only [attrCall]
    split
    · rename_i g hg
      simp only [List.getElem?_set]
      split
      · rename_i e
        subst e
        simp [hi, Attr.type]
        rw [List.getElem?_eq_getElem hi, Option.some.injEq] at hg
        rw [hg]
      · rfl
    · rfl
  | newList => simp [attrCall]
  | add l j ow => simp only [attrCall, callAdd, putList]; (repeat' split) <;> rfl
  | remove l t' => simp only [attrCall, callRemove, putList]; split <;> rfl
  | contains l t' => simp only [attrCall]; split <;> rfl
  | get l t' => simp [attrCall]
  | clear l => simp only [attrCall, putList]; split <;> rfl
  | clone l =>
    simp only [attrCall, cloneList]
    split
    · simp [List.getElem?_append_left hi]
    · rfl

theorem Spec.AttrHasType.lt {w : AttrWorld} {i : Nat} {t : AttrType} (h : Spec.AttrHasType w i t) :
    i < w.cells.length := by
  obtain ⟨a, ha, -⟩ := h
  exact (List.getElem?_eq_some_iff.1 ha).1

theorem heldAt_put {w : AttrWorld} {l : Nat} (hl : l < w.lists.length) (l' : Nat) (m : AttrList) (t : AttrType) :
    heldAt (putList w l' m) l t = if l' = l then attrFind m t else heldAt w l t := by
  simp only [heldAt, putList, List.getElem?_set]
  by_cases e : l' = l
  · subst e; simp [hl]
  · simp [e]

/-- What one call does to the attribute of type `t` in list `l`. -/
theorem call_held {w : AttrWorld} {l : Nat} (hl : l < w.lists.length) (c : AttrCall) (t : AttrType) (i : Nat)
    (hr : ∀ j, c = .add l j true → Spec.AttrHasType w j t → heldAt w l t = none) :
    heldAt (attrCall w c).1 l t = some i ↔
      (∃ ow, (c, (attrCall w c).2) = (.add l i ow, .done) ∧ Spec.AttrHasType w i t) ∨
      (heldAt w l t = some i ∧ ¬ Spec.Disturbs w l t (c, (attrCall w c).2)) := by
  cases c with
  | create a => simp [attrCall, heldAt, Spec.Disturbs]
  | change j f => simp only [attrCall]; split <;> simp [heldAt, Spec.Disturbs]
  | newList => simp [attrCall, heldAt, Spec.Disturbs, List.getElem?_append_left hl]
  | contains l' t' => simp only [attrCall]; split <;> simp [Spec.Disturbs]
  | get l' t' => simp [attrCall, Spec.Disturbs]
  | clone l' =>
    simp only [attrCall]
    split
    · simp [cloneList, heldAt, Spec.Disturbs, List.getElem?_append_left hl]
    · simp [Spec.Disturbs]
  | clear l' =>
    simp only [attrCall]
    split
    · rw [heldAt_put hl]
      by_cases e : l' = l
      · simp [e, attrFind, Spec.Disturbs]
      · simp [e, Spec.Disturbs]
    · rename_i h
      have e : l' ≠ l := by rintro rfl; simp [hl] at h
      simp [Spec.Disturbs, e]
  | remove l' t' =>
    simp only [attrCall, callRemove]
    split
    · rename_i m hm
      rw [heldAt_put hl]
      by_cases e : l' = l
      · subst e
        by_cases et : t' = t
        · subst et; simp [attrFind_remove_same, Spec.Disturbs]
        · simp [attrFind_remove_other et, heldAt, hm, Spec.Disturbs, et]
      · simp [e, Spec.Disturbs]
    · rename_i h
      have e : l' ≠ l := by rintro rfl; simp [hl] at h
      simp [Spec.Disturbs, e]
  | add l' j ow =>
    simp only [attrCall, callAdd]
    split
    · rename_i m a hm ha
      unfold attrAdd
      by_cases hd : (!ow && attrContains m a.type) = true
      · simp [hd, Spec.Disturbs]
      · rw [if_neg hd]
        simp only
        rw [heldAt_put hl]
        by_cases e : l' = l
        · subst e
          by_cases et : a.type = t
          · subst et
            have hj : Spec.AttrHasType w j a.type := ⟨a, ha, rfl⟩
            have hn : attrFind m a.type = none := by
              cases ow with
              | true => simpa [heldAt, hm] using hr j rfl hj
              | false => simpa [attrContains] using hd
            rw [if_pos rfl, attrFind_insert_same hn]
            simp [heldAt, hm, hn]
            rintro rfl
            exact hj
          · have hj : ¬ Spec.AttrHasType w j t := by
              rintro ⟨a', ha', h'⟩
              rw [ha] at ha'
              cases ha'
              exact et h'
            rw [if_pos rfl, attrFind_insert_other et]
            simp [heldAt, hm, Spec.Disturbs, hj]
            rintro rfl h
            exact (hj h).elim
        · simp [e, Spec.Disturbs]
    · simp [Spec.Disturbs]

/-! ### Histories -/

theorem run_grows (w : AttrWorld) (cs : List AttrCall) :
    w.lists.length ≤ (attrRun w cs).1.lists.length ∧ w.cells.length ≤ (attrRun w cs).1.cells.length := by
  induction cs generalizing w with
  | nil => simp [attrRun]
  | cons c cs ih =>
    have h1 := call_grows w c
    have h2 := ih (attrCall w c).1
    simp only [attrRun]
    omega

theorem run_type {w : AttrWorld} {i : Nat} (hi : i < w.cells.length) (cs : List AttrCall) (t : AttrType) :
    Spec.AttrHasType (attrRun w cs).1 i t ↔ Spec.AttrHasType w i t := by
  induction cs generalizing w with
  | nil => simp [attrRun]
  | cons c cs ih =>
    have h1 := (call_grows w c).2
    simp only [attrRun]
    rw [ih (by omega), call_type hi]

/-- An answer `done` to an addition names an attribute that is there. -/
theorem add_done {w : AttrWorld} {l j : Nat} {ow : Bool} (h : (attrCall w (.add l j ow)).2 = .done) :
    j < w.cells.length := by
  simp only [attrCall, callAdd] at h
  split at h
  · rename_i a _ ha; exact (List.getElem?_eq_some_iff.1 ha).1
  · cases h

theorem disturbs_type {w : AttrWorld} {c : AttrCall} (cs : List AttrCall) {l : Nat} {t : AttrType} :
    Spec.Disturbs (attrRun (attrCall w c).1 cs).1 l t (c, (attrCall w c).2) ↔ Spec.Disturbs w l t (c, (attrCall w c).2) := by
  unfold Spec.Disturbs
  refine or_congr Iff.rfl (or_congr Iff.rfl (exists_congr fun j => exists_congr fun ow => and_congr_right fun h => ?_))
  simp only [Prod.mk.injEq] at h
  obtain ⟨rfl, h⟩ := h
  have hj := add_done h
  rw [run_type (Nat.lt_of_lt_of_le hj (call_grows w _).2), call_type hj]

theorem run_held {w : AttrWorld} {l : Nat} (hl : l < w.lists.length) (cs : List AttrCall) (t : AttrType) (i : Nat)
    (hr : Spec.NeverReplaces w l cs) :
    heldAt (attrRun w cs).1 l t = some i ↔
      Spec.LatestAdded (attrRun w cs).1 l t i (attrRun w cs).2 ∨
      (heldAt w l t = some i ∧ ∀ s ∈ (attrRun w cs).2, ¬ Spec.Disturbs (attrRun w cs).1 l t s) := by
  induction cs generalizing w with
  | nil => simp [attrRun, Spec.LatestAdded]
  | cons c cs ih =>
    have hg := call_grows w c
    have hr' : Spec.NeverReplaces (attrCall w c).1 l cs := by
      intro before j t' after he hj
      have := hr (c :: before) j t' after (by rw [he]; rfl) (by simpa only [attrRun] using hj)
      simpa only [attrRun] using this
    have hc : ∀ j, c = .add l j true → Spec.AttrHasType w j t → heldAt w l t = none := by
      rintro j rfl hj
      have := hr [] j t cs rfl (by simpa only [attrRun] using hj)
      simp only [attrRun] at this
      rw [contains_iff hl] at this
      simpa using this
    have h1 := ih (w := (attrCall w c).1) (by omega) hr'
    have h2 := call_held hl c t i hc
    have hd := disturbs_type (w := w) (c := c) cs (l := l) (t := t)
    simp only [attrRun]
    rw [h1, h2]
    constructor
    · rintro (⟨ht, before, ow, after, he, ha⟩ | ⟨⟨ow, he, ht⟩ | ⟨hh, hn⟩, ha⟩)
      · exact .inl ⟨ht, (c, (attrCall w c).2) :: before, ow, after, by rw [he]; rfl, ha⟩
      · have hi : i < w.cells.length := ht.lt
        refine .inl ⟨?_, [], ow, _, by rw [← he]; rfl, ha⟩
        rw [run_type (Nat.lt_of_lt_of_le hi hg.2), call_type hi]
        exact ht
      · refine .inr ⟨hh, fun s hs => ?_⟩
        rcases List.mem_cons.1 hs with rfl | hs
        · rw [hd]; exact hn
        · exact ha s hs
    · rintro (⟨ht, before, ow, after, he, ha⟩ | ⟨hh, ha⟩)
      · cases before with
        | nil =>
          simp only [List.nil_append, List.cons.injEq] at he
          obtain ⟨he, rfl⟩ := he
          refine .inr ⟨.inl ⟨ow, he, ?_⟩, ha⟩
          simp only [Prod.mk.injEq] at he
          obtain ⟨rfl, he⟩ := he
          have hi := add_done he
          rwa [run_type (Nat.lt_of_lt_of_le hi hg.2), call_type hi] at ht
        | cons s before =>
          simp only [List.cons_append, List.cons.injEq] at he
          exact .inl ⟨ht, before, ow, after, he.2, ha⟩
      · refine .inr ⟨.inr ⟨hh, ?_⟩, fun s hs => ha s (List.mem_cons_of_mem _ hs)⟩
        rw [← hd]
        exact ha _ List.mem_cons_self

/-- **C108.** After any calls of a program on attributes and lists, none of which replaces an attribute of list `l`:
`Get` answers attribute `i` for a type exactly when `i` is the attribute of that type last added with success and
not removed since, or was there at the start and has not been touched. -/
theorem C108_history_partial (w : AttrWorld) (l : Nat) (cs : List AttrCall) (t : AttrType) (i : Nat)
    (hl : l < w.lists.length) (hr : Spec.NeverReplaces w l cs) :
    (attrCall (attrRun w cs).1 (.get l t)).2 = .handle i ↔
      Spec.LatestAdded (attrRun w cs).1 l t i (attrRun w cs).2 ∨
      ((attrCall w (.get l t)).2 = .handle i ∧ ∀ s ∈ (attrRun w cs).2, ¬ Spec.Disturbs (attrRun w cs).1 l t s) := by
  rw [get_iff, get_iff]
  exact run_held hl cs t i hr

/-- **C108.** `Contains` and `Get` agree, `Remove` tells whether there was something to remove, and adding without
overwriting fails exactly when the type is there. -/
theorem C108_answers (w : AttrWorld) (l : Nat) (t : AttrType) (hl : l < w.lists.length) :
    ((attrCall w (.contains l t)).2 = .yes true ↔ ∃ i, (attrCall w (.get l t)).2 = .handle i) ∧
    (attrCall w (.remove l t)).2 = (attrCall w (.contains l t)).2 ∧
    ∀ i, Spec.AttrHasType w i t →
      ((attrCall w (.contains l t)).2 = .yes true → attrCall w (.add l i false) = (w, .failed .duplicateKey)) ∧
      ((attrCall w (.contains l t)).2 = .yes false → (attrCall w (.add l i false)).2 = .done) := by
  refine ⟨?_, ?_, ?_⟩
  · rw [contains_iff hl]
    simp only [get_iff, AttrAnswer.yes.injEq, Option.isSome_iff_exists]
  · rw [contains_iff hl]
    have hc : (heldAt w l t).isSome = attrContains w.lists[l] t := by simp [heldAt, attrContains, hl]
    rw [hc]
    simp only [attrCall, callRemove, List.getElem?_eq_getElem hl, attrRemove]
    by_cases h : attrContains w.lists[l] t = true
    · rw [if_pos h, h]
    · rw [if_neg h]
      simp only [Bool.not_eq_true] at h
      rw [h]
  · rintro i ⟨a, ha, rfl⟩
    rw [contains_iff hl]
    simp only [attrCall, callAdd, heldAt, List.getElem?_eq_getElem hl, ha, attrAdd, attrContains, Option.bind_some,
      AttrAnswer.yes.injEq]
    constructor <;> intro h <;> simp [h]

/-- **C108 fails for overwriting.** Whatever list has an attribute of a type: adding another one of that type with
overwriting succeeds, and `Get` still gives the old one. -/
theorem C108_overwrite_counterexample (w : AttrWorld) (l i j : Nat) (t : AttrType)
    (hi : (attrCall w (.get l t)).2 = .handle i) (hj : Spec.AttrHasType w j t) (hne : i ≠ j) :
    (attrCall w (.add l j true)).2 = .done ∧
    (attrCall (attrCall w (.add l j true)).1 (.get l t)).2 = .handle i ∧
    (attrCall (attrCall w (.add l j true)).1 (.get l t)).2 ≠ .handle j := by
  rw [get_iff] at hi
  have hl : l < w.lists.length := by
    simp only [heldAt] at hi
    cases hm : w.lists[l]? with
    | none => simp [hm] at hi
    | some m => exact (List.getElem?_eq_some_iff.1 hm).1
  obtain ⟨a, ha, rfl⟩ := hj
  have hf : attrFind w.lists[l] a.type = some i := by simpa [heldAt, hl] using hi
  have hc : attrCall w (.add l j true) = (putList w l (attrInsert w.lists[l] a.type j), .done) := by
    simp [attrCall, callAdd, List.getElem?_eq_getElem hl, ha, attrAdd]
  have hg : (attrCall (attrCall w (.add l j true)).1 (.get l a.type)).2 = .handle i := by
    rw [get_iff, hc, heldAt_put hl, if_pos rfl]
    exact attrFind_insert_kept hf j
  exact ⟨by rw [hc], hg, by rw [hg]; simpa using hne⟩

/-! ### Handles in lists -/

/-- The handles in all lists are those of attributes of the type they stand under. -/
def GoodLists (w : AttrWorld) : Prop := ∀ m ∈ w.lists, ∀ p ∈ m, Spec.AttrHasType w p.2 p.1

theorem mem_insert {m : AttrList} {t : AttrType} {i : Nat} {p : AttrType × Nat} (h : p ∈ attrInsert m t i) :
    p = (t, i) ∨ p ∈ m := by
  unfold attrInsert at h
  split at h
  · exact .inr h
  · exact List.mem_cons.1 h

theorem mem_removed {m : AttrList} {t : AttrType} {p : AttrType × Nat} (h : p ∈ (attrRemove m t).1) : p ∈ m := by
  unfold attrRemove at h
  split at h
  · exact (List.mem_filter.1 h).1
  · exact h

theorem good_call {w : AttrWorld} (hw : GoodLists w) (c : AttrCall) : GoodLists (attrCall w c).1 := by
  have keep : ∀ m ∈ w.lists, ∀ p ∈ m, Spec.AttrHasType (attrCall w c).1 p.2 p.1 := fun m hm p hp => by
    rw [call_type (hw m hm p hp).lt]
    exact hw m hm p hp
  intro m' hm' p hp
  cases c with
  | create a => exact keep m' hm' p hp
  | change j f =>
    refine keep m' ?_ p hp
    simp only [attrCall] at hm'
    split at hm' <;> exact hm'
  | newList =>
    simp only [attrCall, List.mem_append, List.mem_singleton] at hm'
    rcases hm' with h | rfl
    · exact keep m' h p hp
    · cases hp
  | contains l t => refine keep m' ?_ p hp; simp only [attrCall] at hm'; split at hm' <;> exact hm'
  | get l t => exact keep m' hm' p hp
  | clear l =>
    simp only [attrCall] at hm'
    split at hm'
    · rcases List.mem_or_eq_of_mem_set hm' with h | rfl
      · exact keep m' h p hp
      · cases hp
    · exact keep m' hm' p hp
  | remove l t =>
    simp only [attrCall, callRemove] at hm'
    split at hm'
    · rename_i m hm
      rcases List.mem_or_eq_of_mem_set hm' with h | rfl
      · exact keep m' h p hp
      · exact keep m (List.mem_of_getElem? hm) p (mem_removed hp)
    · exact keep m' hm' p hp
  | add l i ow =>
    simp only [attrCall, callAdd] at hm'
    split at hm'
    · rename_i m a hm ha
      unfold attrAdd at hm'
      split at hm'
      · rename_i m1 hm1
        split at hm1
        · cases hm1
        · cases hm1
          rcases List.mem_or_eq_of_mem_set hm' with h | rfl
          · exact keep m' h p hp
          · rcases mem_insert hp with rfl | h
            · have hi : Spec.AttrHasType w i a.type := ⟨a, ha, rfl⟩
              exact (call_type hi.lt _ _).2 hi
            · exact keep m (List.mem_of_getElem? hm) p h
      · exact keep m' hm' p hp
    · exact keep m' hm' p hp
  | clone l =>
    cases hm : w.lists[l]? with
    | none => simp only [attrCall, hm] at hm'; exact keep m' hm' p hp
    | some m =>
      simp only [attrCall, hm, cloneList, List.mem_append, List.mem_singleton] at hm'
      rcases hm' with h | rfl
      · exact keep m' h p hp
      · obtain ⟨q, hq, rfl⟩ := List.mem_map.1 hp
        obtain ⟨q1, k⟩ := q
        have hk := List.mem_zipIdx_iff_getElem?.1 hq
        obtain ⟨a, ha, ht⟩ := hw m (List.mem_of_getElem? hm) q1 (List.mem_of_getElem? hk)
        refine ⟨a, ?_, ht⟩
        simp only [attrCall, hm, cloneList]
        rw [List.getElem?_append_right (by omega)]
        simp only at hk
        simp [hk, ha]

theorem good_run {w : AttrWorld} (hw : GoodLists w) (cs : List AttrCall) : GoodLists (attrRun w cs).1 := by
  induction cs generalizing w with
  | nil => exact hw
  | cons c cs ih => exact ih (good_call hw c)

/-- A program starts without attributes and lists. -/
def noAttributes : AttrWorld := ⟨[], []⟩

theorem good_reached (cs : List AttrCall) : GoodLists (attrRun noAttributes cs).1 :=
  good_run (by simp [GoodLists, noAttributes]) cs

theorem good_held {w : AttrWorld} (hw : GoodLists w) {l : Nat} {t : AttrType} {i : Nat} (h : heldAt w l t = some i) :
    Spec.AttrHasType w i t := by
  simp only [heldAt] at h
  cases hm : w.lists[l]? with
  | none => simp [hm] at h
  | some m =>
    simp only [hm, Option.bind_some, attrFind] at h
    cases hf : m.find? (fun p => p.1 = t) with
    | none => simp [hf] at h
    | some p =>
      simp only [hf, Option.map_some, Option.some.injEq] at h
      have h1 := hw m (List.mem_of_getElem? hm) p (List.mem_of_find?_eq_some hf)
      have h2 := List.find?_some hf
      simp only [decide_eq_true_eq] at h2
      rw [h, h2] at h1
      exact h1

/-! ### Copies -/

theorem find_zipIdx (m : AttrList) (t : AttrType) (n k : Nat) :
    attrFind ((m.zipIdx k).map (fun q => (q.1.1, n + q.2))) t =
      (m.findIdx? (fun p => p.1 = t)).map (fun x => n + k + x) := by
  induction m generalizing k with
  | nil => simp [attrFind]
  | cons p m ih =>
    simp only [List.zipIdx_cons, List.map_cons]
    have ih := ih (k + 1)
    unfold attrFind at ih ⊢
    simp only [List.find?_cons, List.findIdx?_cons]
    by_cases e : p.1 = t
    · simp [e]
    · simp only [e, decide_false, Bool.false_eq_true, if_false, ih, Option.map_map]
      congr 1
      funext x
      simp only [Function.comp]
      omega

theorem find_findIdx (m : AttrList) (t : AttrType) :
    attrFind m t = (m.findIdx? (fun p => p.1 = t)).bind (fun x => (m[x]?).map Prod.snd) := by
  induction m with
  | nil => simp [attrFind]
  | cons p m ih =>
    unfold attrFind at ih ⊢
    simp only [List.find?_cons, List.findIdx?_cons]
    by_cases e : p.1 = t
    · simp [e]
    · simp only [e, decide_false, Bool.false_eq_true, if_false, ih]
      cases m.findIdx? (fun p => p.1 = t) <;> simp

/-- **C108.** After any calls: a copy of an object has, for each type, a copy of its own of the attribute that the
object has, and no others; lists and attributes that were there stay as they were. -/
theorem C108_clone (cs : List AttrCall) (w : AttrWorld) (l : Nat) (hr : w = (attrRun noAttributes cs).1)
    (hl : l < w.lists.length) :
    (attrCall w (.clone l)).2 = .handle w.lists.length ∧
    (∀ t i, (attrCall w (.get l t)).2 = .handle i → ∃ j, w.cells.length ≤ j ∧
      (attrCall (attrCall w (.clone l)).1 (.get w.lists.length t)).2 = .handle j ∧
      (attrCall w (.clone l)).1.cells[j]? = w.cells[i]?) ∧
    (∀ t, (attrCall w (.contains l t)).2 = (attrCall (attrCall w (.clone l)).1 (.contains w.lists.length t)).2) ∧
    (∀ k, k < w.lists.length → (attrCall w (.clone l)).1.lists[k]? = w.lists[k]?) ∧
    (∀ i, i < w.cells.length → (attrCall w (.clone l)).1.cells[i]? = w.cells[i]?) := by
  have hw : ∀ t i, (attrCall w (.get l t)).2 = .handle i → i < w.cells.length := fun t i h => by
    rw [get_iff] at h
    exact (good_held (hr ▸ good_reached cs) h).lt
  have hc : attrCall w (.clone l) = (cloneList w w.lists[l], .handle w.lists.length) := by
    simp [attrCall, List.getElem?_eq_getElem hl]
  have hn : ∀ t, heldAt (cloneList w w.lists[l]) w.lists.length t =
      (w.lists[l].findIdx? (fun p => p.1 = t)).map (fun x => w.cells.length + x) := by
    intro t
    simp only [heldAt, cloneList, List.getElem?_concat_length, Option.bind_some]
    rw [find_zipIdx]
    simp
  have hh : ∀ t, heldAt w l t = (w.lists[l].findIdx? (fun p => p.1 = t)).bind (fun x => (w.lists[l][x]?).map Prod.snd) := by
    intro t
    simp only [heldAt, List.getElem?_eq_getElem hl, Option.bind_some]
    exact find_findIdx _ _
  rw [hc]
  refine ⟨rfl, ?_, ?_, ?_, ?_⟩
  · intro t i h
    have hi := hw t i h
    rw [get_iff, hh] at h
    cases hx : w.lists[l].findIdx? (fun p => p.1 = t) with
    | none => simp [hx] at h
    | some x =>
      rw [hx, Option.bind_some] at h
      cases hp : w.lists[l][x]? with
      | none => simp [hp] at h
      | some p =>
        simp only [hp, Option.map_some, Option.some.injEq] at h
        subst h
        refine ⟨w.cells.length + x, by omega, ?_, ?_⟩
        · rw [get_iff, hn, hx]; rfl
        · simp only [cloneList]
          rw [List.getElem?_append_right (by omega)]
          simp [hp, hi]
  · intro t
    rw [contains_iff hl, contains_iff (by simp [cloneList]), hn, hh]
    cases hx : w.lists[l].findIdx? (fun p => p.1 = t) with
    | none => simp
    | some x =>
      have hlt : x < w.lists[l].length := by
        obtain ⟨h, -⟩ := List.findIdx?_eq_some_iff_getElem.1 hx
        exact h
      simp [hlt]
  · intro k hk
    simp [cloneList, List.getElem?_append_left hk]
  · intro i hi
    simp [cloneList, List.getElem?_append_left hi]

/-- **C108.** Changing an attribute changes no other. -/
theorem C108_separate (w : AttrWorld) (i j : Nat) (f : ImageFacts) (h : i ≠ j) :
    (attrCall w (.change i f)).1.cells[j]? = w.cells[j]? ∧ (attrCall w (.change i f)).1.lists = w.lists := by
  simp only [attrCall]
  split
  · simp [h]
  · simp

/-! ### Text of objects -/

theorem attrText_eq {w : AttrWorld} {l : Nat} (hl : l < w.lists.length) (plain : Bytes) :
    (∀ i text, heldAt w l .override = some i → w.cells[i]? = some (.override text) → attrText w l plain = .ok text) ∧
    (heldAt w l .override = none → attrText w l plain = .ok plain) := by
  constructor
  · intro i text h hi
    have hf : attrFind w.lists[l] .override = some i := by simpa [heldAt, hl] using h
    simp [attrText, List.getElem?_eq_getElem hl, attrContains, hf, attrGet, ok_bind, hi]
  · intro h
    have hf : attrFind w.lists[l] .override = none := by simpa [heldAt, hl] using h
    simp [attrText, List.getElem?_eq_getElem hl, attrContains, hf]

/-- **C108.** After any calls the text of an object is the text of the override that its list has, byte for byte,
and its own text when the list has none. -/
theorem C108_text (cs : List AttrCall) (w : AttrWorld) (l : Nat) (plain : Bytes)
    (hr : w = (attrRun noAttributes cs).1) (hl : l < w.lists.length) :
    (∀ i, (attrCall w (.get l .override)).2 = .handle i →
      ∃ text, w.cells[i]? = some (.override text) ∧ attrText w l plain = .ok text) ∧
    ((attrCall w (.contains l .override)).2 = .yes false → attrText w l plain = .ok plain) := by
  have hw : GoodLists w := hr ▸ good_reached cs
  constructor
  · intro i h
    rw [get_iff] at h
    obtain ⟨a, ha, ht⟩ := good_held hw h
    cases a with
    | override text => exact ⟨text, ha, (attrText_eq hl plain).1 i text h ha⟩
    | empty => cases ht
    | tracking x => cases ht
    | image x => cases ht
  · intro h
    rw [contains_iff hl] at h
    exact (attrText_eq hl plain).2 (by simpa using h)

/-! ### Bodies of images -/

theorem addFacts_free {w : AttrWorld} {l : Nat} (hl : l < w.lists.length) (hn : heldAt w l .image = none)
    (facts : Option ImageFacts) :
    (addFacts w l facts).2 = .ok () ∧
    (∀ f, facts = some f → ∃ i, heldAt (addFacts w l facts).1 l .image = some i ∧
      (addFacts w l facts).1.cells[i]? = some (.image f)) := by
  have hf : attrFind w.lists[l] .image = none := by simpa [heldAt, hl] using hn
  cases facts with
  | none => simp [addFacts]
  | some f =>
    have hc : callAdd { w with cells := w.cells ++ [.image f] } l w.cells.length false =
        (putList { w with cells := w.cells ++ [.image f] } l (attrInsert w.lists[l] .image w.cells.length), .done) := by
      simp [callAdd, hl, attrAdd, attrContains, Attr.type, hf]
    simp only [addFacts, hc, true_and]
    rintro g hg
    cases hg
    refine ⟨w.cells.length, ?_, by simp [putList]⟩
    rw [heldAt_put (by exact hl), if_pos rfl]
    exact attrFind_insert_same hf _

theorem addFacts_held {w : AttrWorld} {l i : Nat} (h : heldAt w l .image = some i) (f : ImageFacts) :
    (addFacts w l (some f)).2 = .error .duplicateKey ∧ heldAt (addFacts w l (some f)).1 l .image = some i := by
  simp only [heldAt] at h
  cases hm : w.lists[l]? with
  | none => simp [hm] at h
  | some m =>
    have hl := (List.getElem?_eq_some_iff.1 hm).1
    simp only [hm, Option.bind_some] at h
    have hc : callAdd { w with cells := w.cells ++ [.image f] } l w.cells.length false =
        ({ w with cells := w.cells ++ [.image f] }, .failed .duplicateKey) := by
      simp [callAdd, hm, attrAdd, attrContains, Attr.type, h]
    simp [addFacts, hc, heldAt, hm, h]

theorem chain_silent {w : AttrWorld} {l : Nat} {fs : List BodyFilter} (hs : ∀ f ∈ fs, Spec.SaysNothing f) {b r : Bytes}
    (h : Spec.FilteredTo fs b r) : runFilters w l fs b = (w, .ok r) := by
  induction h with
  | nil b => rfl
  | cons f fs b b' r facts hf _ ih =>
    have := hs f List.mem_cons_self b b' facts hf
    subst this
    simp only [runFilters, hf, addFacts]
    exact ih (fun g hg => hs g (List.mem_cons_of_mem _ hg))

theorem filtered_append {fs gs : List BodyFilter} {b r : Bytes} (h : Spec.FilteredTo (fs ++ gs) b r) :
    ∃ m, Spec.FilteredTo fs b m ∧ Spec.FilteredTo gs m r := by
  induction fs generalizing b with
  | nil => exact ⟨b, .nil b, h⟩
  | cons f fs ih =>
    cases h with
    | cons _ _ _ b' _ facts hf h' =>
      obtain ⟨m, h1, h2⟩ := ih h'
      exact ⟨m, .cons f fs b b' m facts hf h1, h2⟩

theorem chain_append (w : AttrWorld) (l : Nat) (fs gs : List BodyFilter) (b m : Bytes) (w' : AttrWorld)
    (h : runFilters w l fs b = (w', .ok m)) : runFilters w l (fs ++ gs) b = runFilters w' l gs m := by
  induction fs generalizing w b with
  | nil => simp only [runFilters, Prod.mk.injEq, Except.ok.injEq] at h; obtain ⟨rfl, rfl⟩ := h; rfl
  | cons f fs ih =>
    simp only [List.cons_append, runFilters] at h ⊢
    cases hf : f b with
    | error e => simp [hf] at h
    | ok x =>
      obtain ⟨b', facts⟩ := x
      simp only [hf] at h ⊢
      rcases ha : addFacts w l facts with ⟨w1, r1⟩
      cases r1 with
      | error e => simp [ha] at h
      | ok u => simp only [ha] at h ⊢; exact ih w1 b' h

/-- **C108.** A stream whose list has no facts about an image, with any filters of which one at most decodes images,
is read to what the filters make of its data, and every later reading gives the same, whatever calls come between. -/
theorem C108_body_partial (w : AttrWorld) (s : BodyStream) (fs gs : List BodyFilter) (f : BodyFilter) (r : Bytes)
    (hl : s.list < w.lists.length) (hd : s.decoded = none) (hf : s.filters = fs ++ f :: gs)
    (h1 : ∀ g ∈ fs, Spec.SaysNothing g) (h2 : ∀ g ∈ gs, Spec.SaysNothing g)
    (hn : (attrCall w (.contains s.list .image)).2 = .yes false) (hr : Spec.FilteredTo s.filters s.data r) :
    (readBody w s).2.2 = .ok r ∧
    (∀ cs, (readBody (attrRun (readBody w s).1 cs).1 (readBody w s).2.1).2.2 = .ok r) ∧
    (∀ m facts b, Spec.FilteredTo fs s.data m → f m = .ok (b, some facts) →
      ∃ i, (attrCall (readBody w s).1 (.get s.list .image)).2 = .handle i ∧
        (readBody w s).1.cells[i]? = some (.image facts)) := by
  rw [contains_iff hl] at hn
  have hn : heldAt w s.list .image = none := by simpa using hn
  rw [hf] at hr
  obtain ⟨m, hm, hr'⟩ := filtered_append hr
  cases hr' with
  | cons _ _ _ b' _ facts hfm hg =>
    have hadd := addFacts_free hl hn facts
    have hchain : runFilters w s.list s.filters s.data = ((addFacts w s.list facts).1, .ok r) := by
      rw [hf, chain_append w s.list fs (f :: gs) s.data m w (chain_silent h1 hm)]
      simp only [runFilters, hfm]
      rcases ha : addFacts w s.list facts with ⟨w1, r1⟩
      rw [ha] at hadd
      obtain ⟨rfl, -⟩ := hadd
      simp only
      exact chain_silent h2 hg
    have hread : readBody w s = ((addFacts w s.list facts).1, { s with decoded := some r }, .ok r) := by
      simp only [readBody, hd, hchain]
    rw [hread]
    refine ⟨rfl, fun cs => rfl, ?_⟩
    intro m' facts' b hm' hb
    have : m' = m := by
      have e1 := chain_silent (w := w) (l := s.list) h1 hm
      have e2 := chain_silent (w := w) (l := s.list) h1 hm'
      rw [e1] at e2
      simp only [Prod.mk.injEq, Except.ok.injEq, true_and] at e2
      exact e2.symm
    subst this
    rw [hfm] at hb
    simp only [Except.ok.injEq, Prod.mk.injEq] at hb
    obtain ⟨i, h3, h4⟩ := hadd.2 facts' hb.2
    exact ⟨i, get_iff.2 h3, h4⟩

/-- **C108 fails where facts are there.** Every image whose list has facts about it already – set by the program, or
by an earlier attempt – cannot be read: the filter decodes it, and the reading ends with an error. -/
theorem C108_body_counterexample (w : AttrWorld) (s : BodyStream) (f : BodyFilter) (gs : List BodyFilter) (i : Nat)
    (facts : ImageFacts) (b r : Bytes) (hd : s.decoded = none) (hf : s.filters = f :: gs)
    (hi : (attrCall w (.get s.list .image)).2 = .handle i) (hb : f s.data = .ok (b, some facts))
    (hr : Spec.FilteredTo s.filters s.data r) :
    Spec.FilteredTo s.filters s.data r ∧ (readBody w s).2.2 = .error .duplicateKey := by
  refine ⟨hr, ?_⟩
  rw [get_iff] at hi
  have ha := addFacts_held hi facts
  simp only [readBody, hd, hf, runFilters, hb]
  rcases hx : addFacts w s.list (some facts) with ⟨w1, r1⟩
  rw [hx] at ha
  obtain ⟨rfl, -⟩ := ha
  rfl

/-- **C108 fails after a failure.** An image is decoded and the next filter fails.  When the filters are then put
right, so that they do decode the data, the stream still cannot be read. -/
theorem C108_retry_counterexample (w : AttrWorld) (s : BodyStream) (f g : BodyFilter) (gs : List BodyFilter)
    (facts : ImageFacts) (b r : Bytes) (e : Fault) (hl : s.list < w.lists.length)
    (hn : (attrCall w (.contains s.list .image)).2 = .yes false) (hd : s.decoded = none) (hf : s.filters = [f, g])
    (hb : f s.data = .ok (b, some facts)) (hg : g b = .error e) (hr : Spec.FilteredTo (f :: gs) s.data r) :
    (readBody w s).2.2 = .error e ∧
    Spec.FilteredTo (f :: gs) s.data r ∧
    (readBody (readBody w s).1 { (readBody w s).2.1 with filters := f :: gs }).2.2 = .error .duplicateKey := by
  have hn' : heldAt w s.list .image = none := by
    rw [contains_iff hl] at hn
    simpa using hn
  have hadd := addFacts_free hl hn' (some facts)
  rcases hx : addFacts w s.list (some facts) with ⟨w1, r1⟩
  rw [hx] at hadd
  obtain ⟨rfl, hh⟩ := hadd
  obtain ⟨i, hi, -⟩ := hh facts rfl
  have hread : readBody w s = (w1, s, .error e) := by
    simp only [readBody, hd, hf, runFilters, hb, hx, hg]
  rw [hread]
  refine ⟨rfl, hr, ?_⟩
  exact (C108_body_counterexample w1 { s with filters := f :: gs } f gs i facts b r hd rfl (get_iff.2 hi) hb hr).2

/-- **C108.** A copy of a stream that has been read is read to the same. -/
theorem C108_body_clone (w : AttrWorld) (s : BodyStream) (b : Bytes) (h : s.decoded = some b) :
    (readBody (cloneStream w s).1 (cloneStream w s).2).2.2 = (readBody w s).2.2 := by
  simp [readBody, cloneStream, h]

/-! ### Encoding -/

theorem encodeRows_spec (row : Nat) (data : Bytes) (left total : Nat) :
    (total + left * row ≤ data.length → ∃ rows, encodeRows row data left total = .ok rows ∧ rows.length = left ∧
      (∀ x ∈ rows, x.length = row) ∧ rows.flatten = (data.drop total).take (left * row)) ∧
    (data.length < total + left * row → total ≤ data.length → encodeRows row data left total = .error .throw) := by
  induction left generalizing total with
  | zero =>
    refine ⟨fun _ => ⟨[], rfl, rfl, by simp, by simp⟩, fun h ht => ?_⟩
    omega
  | succ left ih =>
    have ih := ih (total + row)
    have he : total + (left + 1) * row = total + row + left * row := by
      rw [Nat.add_mul, Nat.one_mul]; omega
    constructor
    · intro h
      obtain ⟨rows, h1, h2, h3, h4⟩ := ih.1 (by omega)
      have hr : total + row ≤ data.length := by
        have := Nat.zero_le (left * row)
        omega
      refine ⟨(data.drop total).take row :: rows, ?_, by simp [h2], ?_, ?_⟩
      · simp only [encodeRows]
        rw [if_neg (by omega), h1]
        rfl
      · intro x hx
        rcases List.mem_cons.1 hx with rfl | hx
        · simp; omega
        · exact h3 x hx
      · rw [List.flatten_cons, h4, Nat.add_mul, Nat.one_mul, Nat.add_comm (left * row) row, List.take_add,
          List.drop_drop]
    · intro h ht
      simp only [encodeRows]
      split
      · rfl
      · rw [ih.2 (by omega) (by omega)]
        rfl

/-- **C108.** Encoding takes the size and the colours from the facts in the list and hands libjpeg the data row by
row: as many rows as the image has, in order, none of them short; too few data are refused. -/
theorem C108_encode (w : AttrWorld) (l i : Nat) (f : ImageFacts) (n : Nat) (data : Bytes)
    (hi : (attrCall w (.get l .image)).2 = .handle i) (hc : w.cells[i]? = some (.image f))
    (hn : (f.colors = .gray ∧ n = 1) ∨ (f.colors = .rgb ∧ n = 3) ∨ (f.colors = .cmyk ∧ n = 4))
    (hw : 1 ≤ f.width ∧ f.width ≤ 65500) (hh : 1 ≤ f.height ∧ f.height ≤ 65500) :
    (f.height * (f.width * n) ≤ data.length → ∃ rows, dctEncode w l data = .ok (⟨f.width, f.height, n, f.colors⟩, rows) ∧
      rows.length = f.height ∧ (∀ x ∈ rows, x.length = f.width * n) ∧
      rows.flatten = data.take (f.height * (f.width * n))) ∧
    (data.length < f.height * (f.width * n) → dctEncode w l data = .error .throw) := by
  rw [get_iff] at hi
  have hk : colorComponents f.colors = some n := by
    rcases hn with ⟨h, rfl⟩ | ⟨h, rfl⟩ | ⟨h, rfl⟩ <;> rw [h] <;> rfl
  have he : dctEncode w l data = (do
      let rows ← encodeRows (f.width * n) data f.height 0
      .ok ({ f with components := n }, rows)) := by
    simp only [heldAt] at hi
    cases hm : w.lists[l]? with
    | none => simp [hm] at hi
    | some m =>
      simp only [hm, Option.bind_some] at hi
      simp only [dctEncode, hm, hi, hc, hk]
      rw [if_neg (by omega)]
  have hs := encodeRows_spec (f.width * n) data f.height 0
  constructor
  · intro h
    obtain ⟨rows, h1, h2, h3, h4⟩ := hs.1 (by omega)
    exact ⟨rows, by rw [he, h1]; rfl, h2, h3, by simpa using h4⟩
  · intro h
    rw [he, hs.2 (by omega) (by omega)]
    rfl

/-- **C108 fails for data that are too long.** Data after the last row are dropped without an error: different bodies
are encoded alike. -/
theorem C108_encode_counterexample (w : AttrWorld) (l i : Nat) (f : ImageFacts) (n : Nat) (data more : Bytes)
    (hi : (attrCall w (.get l .image)).2 = .handle i) (hc : w.cells[i]? = some (.image f))
    (hn : (f.colors = .gray ∧ n = 1) ∨ (f.colors = .rgb ∧ n = 3) ∨ (f.colors = .cmyk ∧ n = 4))
    (hw : 1 ≤ f.width ∧ f.width ≤ 65500) (hh : 1 ≤ f.height ∧ f.height ≤ 65500)
    (hd : data.length = f.height * (f.width * n)) :
    ∃ rows, dctEncode w l data = .ok (⟨f.width, f.height, n, f.colors⟩, rows) ∧ rows.flatten = data ∧
      dctEncode w l (data ++ more) = .ok (⟨f.width, f.height, n, f.colors⟩, rows) := by
  obtain ⟨rows, h1, h2, h3, h4⟩ := (C108_encode w l i f n data hi hc hn hw hh).1 (by omega)
  obtain ⟨rows', g1, g2, g3, g4⟩ := (C108_encode w l i f n (data ++ more) hi hc hn hw hh).1 (by simp; omega)
  rw [← hd] at h4 g4
  simp only [List.take_length] at h4
  simp only [List.take_left] at g4
  refine ⟨rows, h1, h4, ?_⟩
  rw [g1]
  congr 2
  have key : ∀ (k m : Nat) (a b : List Bytes), a.length = m → b.length = m → (∀ x ∈ a, x.length = k) →
      (∀ x ∈ b, x.length = k) → a.flatten = b.flatten → a = b := by
    intro k m
    induction m with
    | zero =>
      intro a b ha hb _ _ _
      rw [List.length_eq_zero_iff.1 ha, List.length_eq_zero_iff.1 hb]
    | succ m ih =>
      intro a b ha hb ka kb hab
      cases a with
      | nil => cases ha
      | cons x a =>
        cases b with
        | nil => cases hb
        | cons y b =>
          have hx := ka x List.mem_cons_self
          have hy := kb y List.mem_cons_self
          simp only [List.flatten_cons] at hab
          obtain ⟨h5, h6⟩ := List.append_inj hab (by omega)
          rw [h5, ih a b (by simpa using ha) (by simpa using hb) (fun z hz => ka z (List.mem_cons_of_mem _ hz))
            (fun z hz => kb z (List.mem_cons_of_mem _ hz)) h6]
  exact key _ f.height _ _ g2 h2 g3 h3 (by rw [g4, h4])

/-! ### Examples -/

/-- Three attributes and a list. -/
def sampleAttrCalls : List AttrCall :=
  [.newList, .create (.override (b! "x")), .create (.image ⟨2, 1, 3, .rgb⟩), .create (.override (b! "yy")), .add 0 0 false,
   .add 0 1 true, .remove 0 .override, .add 0 2 true]

example : (attrRun noAttributes sampleAttrCalls).2.map Prod.snd =
    [.handle 0, .handle 0, .handle 1, .handle 2, .done, .done, .yes true, .done] := by decide +kernel

example : (attrCall (attrRun noAttributes sampleAttrCalls).1 (.get 0 .override)).2 = .handle 2 ∧
    attrText (attrRun noAttributes sampleAttrCalls).1 0 (b! "plain") = .ok (b! "yy") := by decide +kernel

/-- A history that meets the hypothesis of `C108_history_partial`. -/
example : Spec.NeverReplaces ⟨[.override (b! "x")], [[]]⟩ 0 [.add 0 0 true] := by
  intro before i t after he ht
  cases before with
  | nil => obtain ⟨a, ha, rfl⟩ := ht; rfl
  | cons c before => simp at he

example : (attrCall ⟨[.override (b! "x"), .override (b! "y")], [[(.override, 0)]]⟩ (.get 0 .override)).2 = .handle 0 ∧
    (attrCall ⟨[.override (b! "x"), .override (b! "y")], [[(.override, 0)]]⟩ (.add 0 1 true)).2 = .done := by
  decide +kernel

/-- A filter that decodes images of one point. -/
def onePoint : BodyFilter := fun b => .ok (b, some ⟨1, 1, 1, .gray⟩)

example : (readBody ⟨[], [[]]⟩ ⟨0, [onePoint], [7], none⟩).2.2 = .ok [7] ∧
    (readBody ⟨[.image ⟨1, 1, 1, .gray⟩], [[(.image, 0)]]⟩ ⟨0, [onePoint], [7], none⟩).2.2 = .error .duplicateKey := by
  decide +kernel

example : dctEncode ⟨[.image ⟨2, 2, 1, .gray⟩], [[(.image, 0)]]⟩ 0 [1, 2, 3, 4, 5] =
    .ok (⟨2, 2, 1, .gray⟩, [[1, 2], [3, 4]]) := by decide +kernel

end VPdf
