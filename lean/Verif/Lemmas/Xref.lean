import Verif.Spec.Xref
/-
  Lemmas about sections and chains.
-/
namespace VPdf
open Spec

theorem find_some {n : Nat} {l : EntrySet} {e : XEntry} (h : EntrySet.find n l = some e) : e ∈ l ∧ e.num = n := by
  unfold EntrySet.find at h
  exact ⟨List.mem_of_find?_eq_some h, by simpa using List.find?_some h⟩

theorem find_none {n : Nat} {l : EntrySet} : EntrySet.find n l = none ↔ ∀ e ∈ l, e.num ≠ n := by
  unfold EntrySet.find
  simp

theorem find_of_mem {l : EntrySet} (hd : Distinct l) {e : XEntry} (h : e ∈ l) : EntrySet.find e.num l = some e := by
  induction l with
  | nil => simp at h
  | cons x l ih =>
    unfold EntrySet.find
    rw [List.find?_cons]
    by_cases hx : x.num = e.num
    · simp only [hx, beq_self_eq_true]
      rcases List.mem_cons.mp h with rfl | h
      · rfl
      · exact absurd hx ((List.pairwise_cons.mp hd).1 e h)
    · rcases List.mem_cons.mp h with rfl | h
      · exact absurd rfl hx
      · rw [show (x.num == e.num) = false by simpa using hx]
        exact ih (List.pairwise_cons.mp hd).2 h

theorem find_iff {l : EntrySet} (hd : Distinct l) {n : Nat} {e : XEntry} :
    EntrySet.find n l = some e ↔ e ∈ l ∧ e.num = n := by
  refine ⟨find_some, ?_⟩
  rintro ⟨h, rfl⟩; exact find_of_mem hd h

theorem find_append {l : EntrySet} {e : XEntry} (n : Nat) (h : EntrySet.find e.num l = none) :
    EntrySet.find n (l ++ [e]) = if n = e.num then some e else EntrySet.find n l := by
  unfold EntrySet.find at h ⊢
  rw [List.find?_append]
  by_cases hn : n = e.num
  · subst hn; rw [h, if_pos rfl]; simp
  · rw [if_neg hn]
    have : List.find? (fun x => x.num == n) [e] = none := by simp; exact fun h => hn h.symm
    rw [this]; simp

theorem distinct_append {l : EntrySet} {e : XEntry} (hd : Distinct l) (h : EntrySet.find e.num l = none) :
    Distinct (l ++ [e]) := by
  unfold Distinct
  rw [List.pairwise_append]
  refine ⟨hd, by simp, ?_⟩
  intro a ha b hb
  rw [List.mem_singleton] at hb; subst hb
  exact find_none.mp h a ha

theorem distinct_erase {l : EntrySet} (hd : Distinct l) (n : Nat) : Distinct (l.eraseP (fun e => e.num == n)) :=
  List.Pairwise.sublist (List.eraseP_sublist) hd

theorem find_erase {l : EntrySet} (hd : Distinct l) (n k : Nat) :
    EntrySet.find k (l.eraseP (fun e => e.num == n)) = if k = n then none else EntrySet.find k l := by
  induction l with
  | nil => simp [EntrySet.find]
  | cons x l ih =>
    have hl := (List.pairwise_cons.mp hd).2
    have hx := (List.pairwise_cons.mp hd).1
    rw [List.eraseP_cons]
    by_cases hn : x.num = n
    · simp only [hn, beq_self_eq_true, cond_true]
      by_cases hk : k = n
      · rw [if_pos hk, find_none]
        intro e he h; exact hx e he (by rw [hn, h, hk])
      · rw [if_neg hk]
        unfold EntrySet.find
        rw [List.find?_cons, show (x.num == k) = false by simp; omega]
    · rw [show (x.num == n) = false by simpa using hn]
      simp only [cond_false]
      have ih := ih hl
      unfold EntrySet.find at ih ⊢
      rw [List.find?_cons, List.find?_cons]
      by_cases hk : x.num = k
      · rw [show (x.num == k) = true by simpa using hk]
        simp only []
        rw [if_neg (by omega)]
      · rw [show (x.num == k) = false by simpa using hk]
        simpa using ih

theorem remove_spec {l : EntrySet} (hd : Distinct l) (n : Nat) :
    Distinct (EntrySet.remove n l).1 ∧ (EntrySet.remove n l).2 = (EntrySet.find n l).isSome ∧
      ∀ k, EntrySet.find k (EntrySet.remove n l).1 = if k = n then none else EntrySet.find k l := by
  unfold EntrySet.remove
  cases h : EntrySet.find n l with
  | none =>
    refine ⟨hd, rfl, fun k => ?_⟩
    by_cases hk : k = n
    · rw [if_pos hk, hk]; exact h
    · rw [if_neg hk]
  | some e => exact ⟨distinct_erase hd n, rfl, find_erase hd n⟩

theorem add_spec {l : EntrySet} (hd : Distinct l) (e : XEntry) :
    ∃ l', EntrySet.add e l = .ok l' ∧ Distinct l' ∧
      ∀ k, EntrySet.find k l' = if k = e.num then some e else EntrySet.find k l := by
  unfold EntrySet.add EntrySet.insert
  cases h : EntrySet.find e.num l with
  | none => exact ⟨_, rfl, distinct_append hd h, fun k => find_append k h⟩
  | some x =>
    obtain ⟨h1, h2, h3⟩ := remove_spec hd e.num
    rw [h] at h2
    have hn : EntrySet.find e.num (EntrySet.remove e.num l).1 = none := by rw [h3, if_pos rfl]
    refine ⟨(EntrySet.remove e.num l).1 ++ [e], ?_, distinct_append h1 hn, fun k => ?_⟩
    · simp only [Bool.false_eq_true, if_false, h2, hn]
      rfl
    · rw [find_append k hn, h3]
      by_cases hk : k = e.num
      · rw [if_pos hk, if_pos hk]
      · rw [if_neg hk, if_neg hk, if_neg hk]

theorem insertSorted_mem (e x : XEntry) (l : List XEntry) : x ∈ insertSorted e l ↔ x = e ∨ x ∈ l := by
  induction l with
  | nil => simp [insertSorted]
  | cons y l ih =>
    unfold insertSorted
    split
    · simp
    · rw [List.mem_cons, ih, List.mem_cons]; constructor <;> rintro (h | h | h) <;> simp [h]

theorem insertSorted_length (e : XEntry) (l : List XEntry) : (insertSorted e l).length = l.length + 1 := by
  induction l with
  | nil => rfl
  | cons y l ih => unfold insertSorted; split <;> simp [ih]

theorem insertSorted_sorted (e : XEntry) (l : List XEntry) (h : l.Pairwise (fun a b => a.num < b.num))
    (hne : ∀ x ∈ l, x.num ≠ e.num) : (insertSorted e l).Pairwise (fun a b => a.num < b.num) := by
  induction l with
  | nil => simp [insertSorted]
  | cons y l ih =>
    have hy := List.pairwise_cons.mp h
    unfold insertSorted
    split
    · rename_i hlt
      rw [List.pairwise_cons]
      refine ⟨fun b hb => ?_, h⟩
      rcases List.mem_cons.mp hb with rfl | hb
      · exact hlt
      · have := hy.1 b hb; omega
    · rename_i hlt
      rw [List.pairwise_cons]
      refine ⟨fun b hb => ?_, ih hy.2 (fun x hx => hne x (List.mem_cons_of_mem _ hx))⟩
      rcases (insertSorted_mem e b l).mp hb with rfl | hb
      · have := hne y List.mem_cons_self; omega
      · exact hy.1 b hb

theorem sorted_spec {l : EntrySet} (hd : Distinct l) :
    (EntrySet.sorted l).Pairwise (fun a b => a.num < b.num) ∧ (∀ e, e ∈ EntrySet.sorted l ↔ e ∈ l) ∧
      (EntrySet.sorted l).length = l.length := by
  induction l with
  | nil => simp [EntrySet.sorted]
  | cons x l ih =>
    have hx := List.pairwise_cons.mp hd
    obtain ⟨h1, h2, h3⟩ := ih hx.2
    have e : EntrySet.sorted (x :: l) = insertSorted x (EntrySet.sorted l) := rfl
    rw [e]
    refine ⟨insertSorted_sorted x _ h1 (fun y hy => (hx.1 y ((h2 y).mp hy)).symm), fun y => ?_, ?_⟩
    · rw [insertSorted_mem, h2, List.mem_cons]
    · rw [insertSorted_length, h3]; rfl

theorem section_contains (s : Section) (n : Nat) : s.contains n = true ↔ ∃ e, s.find n = .ok e := by
  unfold Section.contains Section.find
  cases EntrySet.find n s.entries with
  | some e => simp
  | none =>
    cases s.hybrid with
    | none => simp
    | some h => simp only []; cases EntrySet.find n h <;> simp

theorem section_find_holds {s : Section} (hw : WellFormed s) {n : Nat} {e : XEntry} :
    s.find n = .ok e ↔ Holds s e ∧ e.num = n := by
  unfold Section.find Holds
  cases h : EntrySet.find n s.entries with
  | some x =>
    obtain ⟨hx, hn⟩ := find_some h
    constructor
    · intro he; injection he with he; subst he; exact ⟨Or.inl hx, hn⟩
    · rintro ⟨he | ⟨l, -, -, hne⟩, rfl⟩
      · rw [find_of_mem hw.1 he] at h; injection h with h; rw [h]
      · exact absurd hn (hne x hx)
  | none =>
    have hn := find_none.mp h
    cases hh : s.hybrid with
    | none =>
      simp only [reduceCtorEq, false_and, exists_false, or_false, false_iff, not_and]
      intro he hen; exact hn e he hen
    | some l =>
      have hdl := hw.2 l hh
      simp only [Option.some.injEq, exists_eq_left']
      cases hf : EntrySet.find n l with
      | none =>
        simp only [reduceCtorEq, false_iff, not_and]
        rintro (he | ⟨he, -⟩) hen
        · exact hn e he hen
        · exact find_none.mp hf e he hen
      | some x =>
        obtain ⟨hx, hxn⟩ := find_some hf
        constructor
        · intro he; injection he with he; subst he
          exact ⟨Or.inr ⟨hx, fun y hy hyn => hn y hy (by omega)⟩, hxn⟩
        · rintro ⟨he | ⟨he, -⟩, rfl⟩
          · exact absurd rfl (hn e he)
          · rw [find_of_mem hdl he] at hf; injection hf with hf; rw [hf]

end VPdf
