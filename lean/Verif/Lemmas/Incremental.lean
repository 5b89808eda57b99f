import Verif.Spec.Incremental
import Verif.Props.Writer
/-
  Lemmas for incremental saves.
-/
namespace VPdf
open Spec

theorem copyContent_eq (rest out : Bytes) : copyContent rest out = out ++ rest := by
  induction h : rest.length using Nat.strongRecOn generalizing rest out with
  | _ n ih =>
    rw [copyContent]
    by_cases hb : rest.take 4096 = []
    · rw [dif_pos hb]
      have : rest = [] := by
        cases rest with
        | nil => rfl
        | cons _ _ => simp at hb
      simp [this]
    · rw [dif_neg hb]
      have hne : rest ≠ [] := by rintro rfl; exact hb rfl
      have := List.length_pos_iff.mpr hne
      rw [ih (rest.drop 4096).length (by rw [← h, List.length_drop]; omega) _ _ rfl, List.append_assoc, List.take_append_drop]

theorem entryAdd_mem {e y : WEntry} : ∀ {l : List WEntry}, y ∈ entryAdd e l → y = e ∨ y ∈ l := by
  intro l
  induction l with
  | nil => intro h; simp [entryAdd] at h; exact Or.inl h
  | cons x l ih =>
    intro h
    rw [entryAdd] at h
    by_cases h1 : e.num < x.num
    · rw [if_pos h1] at h
      rcases List.mem_cons.mp h with h | h
      · exact Or.inl h
      · exact Or.inr h
    · rw [if_neg h1] at h
      by_cases h2 : e.num = x.num
      · rw [if_pos h2] at h
        rcases List.mem_cons.mp h with h | h
        · exact Or.inl h
        · exact Or.inr (by simp [h])
      · rw [if_neg h2] at h
        rcases List.mem_cons.mp h with h | h
        · exact Or.inr (by simp [h])
        · rcases ih h with h | h
          · exact Or.inl h
          · exact Or.inr (by simp [h])

theorem entryAdd_self (e : WEntry) : ∀ l : List WEntry, e ∈ entryAdd e l := by
  intro l
  induction l with
  | nil => simp [entryAdd]
  | cons x l ih =>
    rw [entryAdd]
    by_cases h1 : e.num < x.num
    · rw [if_pos h1]; simp
    · rw [if_neg h1]
      by_cases h2 : e.num = x.num
      · rw [if_pos h2]; simp
      · rw [if_neg h2]; simp [ih]

theorem entryAdd_keep {e y : WEntry} (h : y.num ≠ e.num) : ∀ {l : List WEntry}, y ∈ l → y ∈ entryAdd e l := by
  intro l
  induction l with
  | nil => simp
  | cons x l ih =>
    intro hy
    rw [entryAdd]
    by_cases h1 : e.num < x.num
    · rw [if_pos h1]; simp [List.mem_cons.mp hy]
    · rw [if_neg h1]
      by_cases h2 : e.num = x.num
      · rw [if_pos h2]
        rcases List.mem_cons.mp hy with rfl | hy
        · exact absurd h2.symm h
        · simp [hy]
      · rw [if_neg h2]
        rcases List.mem_cons.mp hy with rfl | hy
        · simp
        · simp [ih hy]

theorem entryAdd_sorted (e : WEntry) : ∀ {l : List WEntry}, l.Pairwise (fun a b => a.num < b.num) →
    (entryAdd e l).Pairwise fun a b => a.num < b.num := by
  intro l
  induction l with
  | nil => intro _; simp [entryAdd]
  | cons x l ih =>
    intro h
    rw [List.pairwise_cons] at h
    rw [entryAdd]
    by_cases h1 : e.num < x.num
    · rw [if_pos h1, List.pairwise_cons]
      refine ⟨fun y hy => ?_, List.pairwise_cons.mpr h⟩
      rcases List.mem_cons.mp hy with rfl | hy
      · exact h1
      · have := h.1 y hy; omega
    · rw [if_neg h1]
      by_cases h2 : e.num = x.num
      · rw [if_pos h2, List.pairwise_cons]
        exact ⟨fun y hy => by have := h.1 y hy; omega, h.2⟩
      · rw [if_neg h2, List.pairwise_cons]
        refine ⟨fun y hy => ?_, ih h.2⟩
        rcases entryAdd_mem hy with rfl | hy
        · omega
        · exact h.1 y hy

theorem entryAdd_length (e : WEntry) (l : List WEntry) : (entryAdd e l).length ≤ l.length + 1 := by
  induction l with
  | nil => simp [entryAdd]
  | cons x l ih =>
    rw [entryAdd]
    split
    · simp
    · split
      · simp
      · simp; omega

/-- The entry the new section gets for a marked entry. -/
def incOf (i : IEntry) : Option WEntry :=
  match i.entry.kind with
  | .used off (some o) => some ⟨i.entry.num, i.entry.gen, .used off (some o)⟩
  | .free _ => some ⟨i.entry.num, i.entry.gen, .free 0⟩
  | _ => none

theorem incOf_num {i : IEntry} {e : WEntry} (h : incOf i = some e) :
    e.num = i.entry.num ∧ e.gen = i.entry.gen ∧ entryObject e = entryObject i.entry ∧
    ∀ a b o, e.kind ≠ .compressed a b o := by
  obtain ⟨⟨n, g, k⟩, d⟩ := i
  cases k with
  | free x => injection h with h; subst h; exact ⟨rfl, rfl, rfl, by simp⟩
  | used off o =>
    cases o with
    | none => cases h
    | some o => injection h with h; subst h; exact ⟨rfl, rfl, rfl, by simp⟩
  | compressed a b o => cases h

theorem incEntry_ok {acc acc' : List WEntry} {i : IEntry} (h : incEntry acc i = .ok acc') :
    (acc' = acc ∧ (i.dirty = false ∨ ∃ off, i.entry.kind = .used off none)) ∨
    (i.dirty = true ∧ ∃ e, incOf i = some e ∧ acc' = entryAdd e acc) := by
  obtain ⟨⟨n, g, k⟩, d⟩ := i
  cases d with
  | false => injection h with h; exact Or.inl ⟨h.symm, Or.inl rfl⟩
  | true =>
    cases k with
    | free x => injection h with h; exact Or.inr ⟨rfl, _, rfl, h.symm⟩
    | used off o =>
      cases o with
      | none => injection h with h; exact Or.inl ⟨h.symm, Or.inr ⟨off, rfl⟩⟩
      | some o => injection h with h; exact Or.inr ⟨rfl, _, rfl, h.symm⟩
    | compressed a b o => cases h

/-- The loop of `CreateIncrementalXref`: what the new section has. -/
theorem incEntries_spec (L : List IEntry) : ∀ {acc es : List WEntry}, L.foldlM incEntry acc = .ok es →
    acc.Pairwise (fun a b => a.num < b.num) →
    es.Pairwise (fun a b => a.num < b.num) ∧ es.length ≤ acc.length + L.length ∧
    (∀ y ∈ es, y ∈ acc ∨ ∃ i ∈ L, i.dirty = true ∧ incOf i = some y) ∧
    (∀ y, (y ∈ acc ∧ ∀ i ∈ L, i.dirty = true → i.entry.num ≠ y.num) → y ∈ es) ∧
    (∀ i, i.dirty = true → ∀ A B y, L = A ++ i :: B → (∀ j ∈ B, j.dirty = true → j.entry.num ≠ i.entry.num) →
      incOf i = some y → y ∈ es) := by
  induction L with
  | nil =>
    intro acc es h hs
    injection h with h; subst h
    refine ⟨hs, by simp, fun y hy => Or.inl hy, fun y hy => hy.1, ?_⟩
    intro i _ A B y h; simp at h
  | cons i L ih =>
    intro acc es h hs
    rw [List.foldlM_cons] at h
    obtain ⟨acc1, h1, h2⟩ := except_bind_ok h
    clear h
    rcases incEntry_ok h1 with ⟨rfl, hi⟩ | ⟨hd, e, he, rfl⟩
    · obtain ⟨r1, r2, r3, r4, r5⟩ := ih h2 hs
      refine ⟨r1, by simp; omega, fun y hy => ?_, fun y hy => r4 y ⟨hy.1, fun j hj => hy.2 j (by simp [hj])⟩, ?_⟩
      · rcases r3 y hy with h | ⟨j, hj, h⟩
        · exact Or.inl h
        · exact Or.inr ⟨j, by simp [hj], h⟩
      · intro j hj A B y hL hB hy
        cases A with
        | nil =>
          injection hL with hL1 hL2
          subst hL1
          rcases hi with hi | ⟨off, hi⟩
          · rw [hi] at hj; cases hj
          · rw [incOf, hi] at hy; cases hy
        | cons a A =>
          injection hL with hL1 hL2
          exact r5 j hj A B y hL2 hB hy
    · obtain ⟨r1, r2, r3, r4, r5⟩ := ih h2 (entryAdd_sorted e hs)
      have hl := entryAdd_length e acc
      obtain ⟨n1, n2, _, _⟩ := incOf_num he
      refine ⟨r1, by simp; omega, fun y hy => ?_, fun y hy => ?_, ?_⟩
      · rcases r3 y hy with h | ⟨j, hj, h⟩
        · rcases entryAdd_mem h with rfl | h
          · exact Or.inr ⟨i, by simp, hd, he⟩
          · exact Or.inl h
        · exact Or.inr ⟨j, by simp [hj], h⟩
      · have := hy.2 i (by simp) hd
        exact r4 y ⟨entryAdd_keep (by omega) hy.1, fun j hj => hy.2 j (by simp [hj])⟩
      · intro j hj A B y hL hB hy
        cases A with
        | nil =>
          injection hL with hL1 hL2
          subst hL1; subst hL2
          rw [he] at hy; injection hy with hy; subst hy
          exact r4 e ⟨entryAdd_self _ _, fun k hk hkd => by have := hB k hk hkd; omega⟩
        | cons a A =>
          injection hL with hL1 hL2
          exact r5 j hj A B y hL2 hB hy

theorem docHolds_append {A : List WSection} {B : List WSection} {n g : Nat} {o : SObj}
    (hA : ∀ s ∈ A, ∀ e ∈ s.entries, ¬ (e.num = n ∧ e.gen = g)) (h : DocHolds B n g o) : DocHolds (A ++ B) n g o := by
  induction A with
  | nil => exact h
  | cons s A ih => exact .older _ _ _ _ _ (hA s (by simp)) (ih fun s hs => hA s (by simp [hs]))

theorem docHolds_split {ss : List WSection} {n g : Nat} {o : SObj} (h : DocHolds ss n g o) :
    ∃ A s B e, ss = A ++ s :: B ∧ (∀ s ∈ A, ∀ e ∈ s.entries, ¬ (e.num = n ∧ e.gen = g)) ∧ e ∈ s.entries ∧ e.num = n ∧
      e.gen = g ∧ s.own ≠ some (n, g) ∧ o = entryObject e := by
  induction h with
  | here s ss e he ho => exact ⟨[], s, ss, e, rfl, by simp, he, rfl, rfl, ho, rfl⟩
  | older s ss n g o hno _ ih =>
    obtain ⟨A, t, B, e, h1, h2, h3⟩ := ih
    refine ⟨s :: A, t, B, e, by rw [h1]; rfl, ?_, h3⟩
    intro u hu
    rcases List.mem_cons.mp hu with rfl | hu
    · exact hno
    · exact h2 u hu

theorem modified_split {cur : List ISection} {ss : List WSection} (h : ModifiedDoc cur ss) :
    ∀ {A : List ISection} {i : ISection} {B : List ISection}, cur = A ++ i :: B →
    ∃ A' s B', ss = A' ++ s :: B' ∧ Modified i s ∧ ∀ s ∈ A', ∃ j ∈ A, Modified j s := by
  induction h with
  | nil => intro A i B h; simp at h
  | cons j s cur ss hm _ ih =>
    intro A i B h
    cases A with
    | nil =>
      injection h with h1 h2; subst h1
      exact ⟨[], s, ss, rfl, hm, by simp⟩
    | cons a A =>
      injection h with h1 h2; subst h1
      obtain ⟨A', t, B', e1, e2, e3⟩ := ih h2
      refine ⟨s :: A', t, B', by rw [e1]; rfl, e2, ?_⟩
      intro u hu
      rcases List.mem_cons.mp hu with rfl | hu
      · exact ⟨j, by simp, hm⟩
      · obtain ⟨k, hk, h⟩ := e3 u hu; exact ⟨k, by simp [hk], h⟩

theorem ientry_unique {l : List IEntry} (h : l.Pairwise fun a b => a.entry.num < b.entry.num) {x y : IEntry} (hx : x ∈ l)
    (hy : y ∈ l) (hn : x.entry.num = y.entry.num) : x = y := by
  induction l with
  | nil => cases hx
  | cons z l ih =>
    rw [List.pairwise_cons] at h
    rcases List.mem_cons.mp hx with rfl | hx' <;> rcases List.mem_cons.mp hy with rfl | hy'
    · rfl
    · have := h.1 y hy'; omega
    · have := h.1 x hx'; omega
    · exact ih h.2 hx' hy'

/-- The new section in front of the sections of the file stands for the document in memory. -/
theorem inc_holds {cur : List ISection} {ss : List WSection} {t : WSection} (hm : ModifiedDoc cur ss) (hc : Changes cur ss)
    (hs : ∀ i ∈ cur, GoodSection i.plain)
    (ht : (cur.flatMap ISection.entries).foldlM incEntry [⟨0, 65535, .free 0⟩] = .ok t.entries) (hown : t.own = none)
    {n g : Nat} {o : SObj} (h : DocHolds (cur.map ISection.plain) n g o) :
    DocHolds (t :: ss) n g o ∨ (DocLacks (t :: ss) n g ∧ o = .direct .null) := by
  obtain ⟨r1, _, r3, r4, r5⟩ := incEntries_spec _ ht (List.pairwise_singleton _ _)
  obtain ⟨A, p, B, w, e1, e2, e3, rfl, rfl, e6, rfl⟩ := docHolds_split h
  obtain ⟨A, C, hcur, rfl, e1'⟩ := List.map_eq_append_iff.mp e1
  obtain ⟨i, B, rfl, rfl, rfl⟩ := List.map_eq_cons_iff.mp e1'
  obtain ⟨e, he, rfl⟩ := List.mem_map.mp e3
  subst hcur
  have hi : i ∈ A ++ i :: B := by simp
  have new := List.pairwise_append.mp hc.newest
  have new2 := List.pairwise_cons.mp new.2.1
  have sorted' : i.entries.Pairwise (fun a b => a.entry.num < b.entry.num) := by
    have h : (i.entries.map IEntry.entry).Pairwise (fun a b => a.num < b.num) := (hs i hi).sorted
    rw [List.pairwise_map] at h; exact h
  have uniq' : ∀ x ∈ i.entries, x.entry.num = e.entry.num → x = e := fun x hx hn => ientry_unique sorted' hx he hn
  -- an entry of the new section with this number and generation
  have inNew : ∀ y ∈ t.entries, y.num = e.entry.num → y.gen = e.entry.gen →
      (y = ⟨0, 65535, .free 0⟩ ∨ (e.dirty = true ∧ incOf e = some y)) := by
    intro y hy hn hg
    rcases r3 y hy with h | ⟨j, hj, hd, hjy⟩
    · exact Or.inl (by simpa using h)
    · obtain ⟨n1, n2, _, _⟩ := incOf_num hjy
      obtain ⟨k, hk, hjk⟩ := List.mem_flatMap.mp hj
      rcases List.mem_append.mp hk with hk | hk
      · exact absurd ⟨by omega, by omega⟩ (e2 k.plain (List.mem_map.mpr ⟨k, hk, rfl⟩) j.entry (List.mem_map.mpr ⟨j, hjk, rfl⟩))
      · rcases List.mem_cons.mp hk with rfl | hk
        · have := uniq' j hjk (by omega)
          subst this
          exact Or.inr ⟨hd, hjy⟩
        · exact absurd (by omega) (new2.1 k hk j hjk hd e he)
  cases hd : e.dirty with
  | true =>
    cases hk : incOf e with
    | some y =>
      have hy : y ∈ t.entries := by
        obtain ⟨A2, B2, hsplit⟩ := List.append_of_mem he
        refine r5 e hd (A.flatMap ISection.entries ++ A2) (B2 ++ B.flatMap ISection.entries) y ?_ ?_ hk
        · simp [hsplit]
        · intro j hj hjd
          rcases List.mem_append.mp hj with hj | hj
          · rw [hsplit] at sorted'
            have := (List.pairwise_cons.mp (List.pairwise_append.mp sorted').2.1).1 j hj
            omega
          · obtain ⟨k, hk, hjk⟩ := List.mem_flatMap.mp hj
            exact (new2.1 k hk j hjk hjd e he).symm
      obtain ⟨n1, n2, n3, _⟩ := incOf_num hk
      refine Or.inl ?_
      rw [← n1, ← n2, ← n3]
      exact .here t ss y hy (by rw [hown]; simp)
    | none =>
      have hobj : ∃ off, e.entry.kind = .used off none := by
        obtain ⟨⟨n, g, k⟩, d⟩ := e
        have nc := (good_entry (hs i hi) (List.mem_map.mpr ⟨_, he, rfl⟩)).2
        cases k with
        | free x => cases hk
        | used off o =>
          cases o with
          | none => exact ⟨off, rfl⟩
          | some o => cases hk
        | compressed a b o => exact absurd rfl (nc a b o)
      obtain ⟨off, hobj⟩ := hobj
      refine Or.inr ⟨?_, by rw [entryObject, hobj]⟩
      intro s hs' y hy hng
      rcases List.mem_cons.mp hs' with rfl | hs'
      · rcases inNew y hy hng.1 hng.2 with rfl | ⟨_, h⟩
        · obtain ⟨k, h0⟩ := hc.zero i hi e he (by rw [← hng.1])
          rw [h0] at hobj; cases hobj
        · rw [hk] at h; cases h
      · exact hc.allocated e off ⟨hd, i, hi, he⟩ hobj s hs' y hy hng.1
  | false =>
    obtain ⟨A', s, B', f1, f2, f3⟩ := modified_split hm rfl
    obtain ⟨x, hx, x1, x2, x3⟩ := f2.clean e he hd
    by_cases hz : ∃ y ∈ t.entries, y.num = e.entry.num ∧ y.gen = e.entry.gen
    · obtain ⟨y, hy, y1, y2⟩ := hz
      rcases inNew y hy y1 y2 with rfl | ⟨h, _⟩
      · obtain ⟨k, h0⟩ := hc.zero i hi e he (by rw [← y1])
        refine Or.inl ?_
        have ho : entryObject e.entry = entryObject ⟨0, 65535, .free 0⟩ := by rw [entryObject, h0]; rfl
        rw [ho, ← y1, ← y2]
        exact .here t ss _ hy (by rw [hown]; simp)
      · rw [hd] at h; cases h
    · refine Or.inl (.older _ _ _ _ _ (fun y hy hng => hz ⟨y, hy, hng⟩) ?_)
      rw [f1]
      refine docHolds_append ?_ ?_
      · intro u hu y hy hng
        obtain ⟨j, hj, hjm⟩ := f3 u hu
        obtain ⟨z, hz, z1, z2⟩ := hjm.kept y hy
        exact e2 j.plain (List.mem_map.mpr ⟨j, hj, rfl⟩) z.entry (List.mem_map.mpr ⟨z, hz, rfl⟩) ⟨by omega, by omega⟩
      · rw [← x1, ← x2, ← x3]
        exact .here s B' x hx (by rw [← f2.own, x1, x2]; exact e6)

end VPdf
