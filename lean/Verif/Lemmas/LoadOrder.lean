import Verif.Lemmas.LoadMono
import Verif.Spec.LoadOrder
/-
  Loading objects one after the other: the state of the file and the values.
-/
namespace VPdf
open Spec

variable {c : Codec} {file : Bytes} {secs : List ReadSection}

theorem resolveIn_le {f f' : Nat} {st st' : Loaded}
    (h : ∀ n g o, (loadStep c file secs f st n g).2 = .ok o → (loadStep c file secs f' st' n g).2 = .ok o) (n g : Nat) (i : Int)
    (hi : resolveIn c file secs f st n g = .ok i) : resolveIn c file secs f' st' n g = .ok i := by
  unfold resolveIn at hi ⊢
  obtain ⟨o, h1, h2⟩ := except_bind_ok hi
  rw [h n g o h1, ok_bind]; exact h2

theorem fileEnv_le {r r' : Nat → Nat → Res Int} (h : ∀ n g i, r n g = .ok i → r' n g = .ok i) :
    Env.Le (fileEnv file r) (fileEnv file r') := ⟨rfl, rfl, h⟩

/-! ### the cases of a step -/

theorem step_none {n g : Nat} (h : findRead secs n g = none) (f : Nat) (st : Loaded) :
    loadStep c file secs (f + 1) st n g = (st, .ok (.direct .null)) := by
  rw [loadStep]; simp only [h]

theorem step_free {n g k : Nat} {x : XEntry} (h : findRead secs n g = some x) (hx : x.kind = .free k) (f : Nat) (st : Loaded) :
    loadStep c file secs (f + 1) st n g = (st, .ok (.direct .null)) := by
  rw [loadStep]; simp only [h, hx]

theorem step_cached {n g : Nat} {x : XEntry} (h : findRead secs n g = some x) (hx : ∀ k, x.kind ≠ .free k) (f : Nat) {st : Loaded}
    {o : SObj} (ho : st.get n g = some o) : loadStep c file secs (f + 1) st n g = (st, .ok o) := by
  rw [loadStep]; simp only [h]
  cases hk : x.kind with
  | free k => exact absurd hk (hx k)
  | used off => simp only [ho]
  | compressed s i => simp only [ho]

theorem step_used {n g : Nat} {x : XEntry} {off : Int} (h : findRead secs n g = some x) (hx : x.kind = .used off) (f : Nat)
    {st : Loaded} (ho : st.get n g = none) : loadStep c file secs (f + 1) st n g =
      match loadAt (fileEnv file (resolveIn c file secs f st)) n g off with
      | .error e => (st, .error e)
      | .ok o => (st.set n g o, .ok o) := by
  rw [loadStep]; simp only [h, hx, ho]; rfl

theorem step_compressed {n g sn i : Nat} {x : XEntry} (h : findRead secs n g = some x) (hx : x.kind = .compressed sn i) (f : Nat)
    {st : Loaded} (ho : st.get n g = none) : loadStep c file secs (f + 1) st n g =
      match loadStep c file secs f st sn 0 with
      | (st', .error e) => (st', .error e)
      | (st', .ok stm) =>
        if sn ∈ st'.streams then (st', .ok ((st'.get n g).getD (.direct .null)))
        else
          match objStmContent c (resolveIn c file secs f st) stm with
          | .error e => (st', .error e)
          | .ok l =>
            match storeAll secs st' l with
            | (st'', .error e) => (st'', .error e)
            | (st'', .ok ()) => (⟨st''.objects, sn :: st''.streams⟩, .ok ((st''.get n g).getD (.direct .null))) := by
  rw [loadStep]; simp only [h, hx, ho]; rfl

/-! ### more depth -/

theorem step_mono : ∀ (f : Nat) (st : Loaded) (n g : Nat) (o : SObj), (loadStep c file secs f st n g).2 = .ok o →
    loadStep c file secs (f + 1) st n g = loadStep c file secs f st n g := by
  intro f
  induction f with
  | zero => intro st n g o h; rw [loadStep] at h; cases h
  | succ f ih =>
    intro st n g o h
    have le : ∀ n g i, resolveIn c file secs f st n g = .ok i → resolveIn c file secs (f + 1) st n g = .ok i :=
      resolveIn_le (fun n g o h => by rw [ih st n g o h]; exact h)
    cases hf : findRead secs n g with
    | none => rw [step_none hf, step_none hf]
    | some x =>
      cases hk : x.kind with
      | free k => rw [step_free hf hk, step_free hf hk]
      | used off =>
        cases hg : st.get n g with
        | some o' => rw [step_cached hf (by simp [hk]) _ hg, step_cached hf (by simp [hk]) _ hg]
        | none =>
          rw [step_used hf hk _ hg] at h
          rw [step_used hf hk _ hg, step_used hf hk _ hg]
          cases hl : loadAt (fileEnv file (resolveIn c file secs f st)) n g off with
          | error e => rw [hl] at h; cases h
          | ok o' => rw [loadAt_le (fileEnv_le le) hl]
      | compressed sn i =>
        cases hg : st.get n g with
        | some o' => rw [step_cached hf (by simp [hk]) _ hg, step_cached hf (by simp [hk]) _ hg]
        | none =>
          rw [step_compressed hf hk _ hg] at h
          rw [step_compressed hf hk _ hg, step_compressed hf hk _ hg]
          cases hs : loadStep c file secs f st sn 0 with
          | mk st' r =>
            cases r with
            | error e => rw [hs] at h; cases h
            | ok stm =>
              rw [ih st sn 0 stm (by rw [hs]), hs]
              rw [hs] at h
              dsimp only at h ⊢
              by_cases hm : sn ∈ st'.streams
              · rw [if_pos hm, if_pos hm]
              · rw [if_neg hm] at h ⊢
                rw [if_neg hm]
                cases hc : objStmContent c (resolveIn c file secs f st) stm with
                | error e => rw [hc] at h; cases h
                | ok l => rw [objStmContent_le le hc]

theorem step_mono_le {f f' : Nat} (hle : f ≤ f') {st : Loaded} {n g : Nat} {o : SObj}
    (h : (loadStep c file secs f st n g).2 = .ok o) : loadStep c file secs f' st n g = loadStep c file secs f st n g := by
  induction hle with
  | refl => rfl
  | step _ ih => rw [step_mono _ _ _ _ o (by rw [ih]; exact h), ih]

theorem fresh_mono {f f' : Nat} (hle : f ≤ f') {n g : Nat} {o : SObj} (h : freshLoad c file secs f n g = .ok o) :
    freshLoad c file secs f' n g = .ok o := by
  unfold freshLoad at h ⊢
  rw [step_mono_le hle h]; exact h

theorem fresh_unique {f f' : Nat} {n g : Nat} {o o' : SObj} (h : freshLoad c file secs f n g = .ok o)
    (h' : freshLoad c file secs f' n g = .ok o') : o = o' := by
  have h1 := fresh_mono (Nat.le_max_left f f') h
  have h2 := fresh_mono (Nat.le_max_right f f') h'
  rw [h1] at h2; injection h2

/-! ### the state -/

theorem Loaded.get_set (st : Loaded) (n g : Nat) (o : SObj) (m h : Nat) :
    (st.set n g o).get m h = if (m, h) = (n, g) then some o else st.get m h := by
  unfold Loaded.get Loaded.set
  by_cases he : (m, h) = (n, g)
  · rw [if_pos he, he]; simp
  · rw [if_neg he]
    have : ¬ (n, g) = (m, h) := fun q => he q.symm
    have hb : ((n, g) == (m, h)) = false := by simpa using this
    rw [List.find?_cons_of_neg (by simp [hb])]
    congr 1
    induction st.objects with
    | nil => rfl
    | cons x l ih =>
      by_cases hx : x.1 = (n, g)
      · rw [List.filter_cons_of_neg (by simp [hx]), ih, List.find?_cons]
        have : (x.1 == (m, h)) = false := by rw [hx]; simpa using this
        simp only [this]
      · rw [List.filter_cons_of_pos (by simpa using hx), List.find?_cons, List.find?_cons, ih]

theorem Loaded.streams_set (st : Loaded) (n g : Nat) (o : SObj) (s : Nat) (h : s ∈ (st.set n g o).streams) : s ∈ st.streams := by
  unfold Loaded.set at h
  dsimp only at h
  split at h
  · exact (List.mem_filter.mp h).1
  · exact h

/-- The last object listed under a number. -/
def listed (l : List (Nat × Obj)) (n : Nat) : Option Obj := (l.reverse.find? (fun x => x.1 == n)).map (·.2)

theorem listed_cons (a : Nat × Obj) (l : List (Nat × Obj)) (n : Nat) :
    listed (a :: l) n = match listed l n with | some o => some o | none => if a.1 = n then some a.2 else none := by
  unfold listed
  rw [List.reverse_cons, List.find?_append]
  cases l.reverse.find? (fun x => x.1 == n) with
  | some x => rfl
  | none =>
    by_cases h : a.1 = n
    · simp [h]
    · have : (a.1 == n) = false := by simpa using h
      simp [this, h]

theorem listed_mem {l : List (Nat × Obj)} {n : Nat} {o : Obj} (h : listed l n = some o) : ∃ y ∈ l, y.1 = n := by
  unfold listed at h
  cases hf : l.reverse.find? (fun x => x.1 == n) with
  | none => rw [hf] at h; cases h
  | some x =>
    exact ⟨x, by simpa using List.mem_of_find?_eq_some hf, by simpa using List.find?_some hf⟩

/-- Storing the objects of an object stream all of whose numbers are in use. -/
theorem storeAll_spec (l : List (Nat × Obj)) : ∀ (st : Loaded),
    (∀ y ∈ l, ∃ x, findRead secs y.1 0 = some x ∧ ∀ k, x.kind ≠ .free k) →
    ∃ st', storeAll secs st l = (st', .ok ()) ∧
      (∀ n g, st'.get n g = if g = 0 then (match listed l n with | some o => some (.direct o) | none => st.get n g) else st.get n g) ∧
      ∀ s ∈ st'.streams, s ∈ st.streams := by
  induction l with
  | nil => intro st _; exact ⟨st, rfl, fun n g => by simp [listed], fun s h => h⟩
  | cons a l ih =>
    intro st h
    obtain ⟨m, o⟩ := a
    obtain ⟨x, h1, h2⟩ := h (m, o) (by simp)
    obtain ⟨st', e1, e2, e3⟩ := ih (st.set m 0 (.direct o)) (fun y hy => h y (by simp [hy]))
    refine ⟨st', ?_, ?_, fun s hs => st.streams_set _ _ _ _ (e3 s hs)⟩
    · rw [storeAll]; simp only [h1]
      cases hk : x.kind with
      | free k => exact absurd hk (h2 k)
      | _ => exact e1
    · intro n g
      rw [e2, listed_cons, st.get_set]
      by_cases hg : g = 0
      · subst hg
        rw [if_pos rfl, if_pos rfl]
        cases listed l n with
        | some o' => rfl
        | none =>
          by_cases hm : m = n
          · subst hm; simp
          · have : ¬ n = m := fun q => hm q.symm
            simp [hm, this]
      · rw [if_neg hg, if_neg hg, if_neg (by simp [hg])]

/-! ### consistent files -/

/-- Everything in the state has the value it has in a file of which nothing has been loaded. -/
structure LoadInv (c : Codec) (file : Bytes) (secs : List ReadSection) (k : Nat) (st : Loaded) : Prop where
  values : ∀ n g o, st.get n g = some o → freshLoad c file secs k n g = .ok o
  streams : ∀ sn ∈ st.streams, ∀ n x i, findRead secs n 0 = some x → x.kind = .compressed sn i →
    freshLoad c file secs k n 0 = .ok ((st.get n 0).getD (.direct .null))

theorem LoadInv.mono {k k' : Nat} {st : Loaded} (h : LoadInv c file secs k st) (hle : k ≤ k') : LoadInv c file secs k' st :=
  ⟨fun n g o ho => fresh_mono hle (h.values n g o ho), fun s hs n x i h1 h2 => fresh_mono hle (h.streams s hs n x i h1 h2)⟩

theorem loadInv_empty : LoadInv c file secs 0 {} := ⟨fun n g o h => by simp [Loaded.get] at h, fun s hs => by simp at hs⟩

/-- The first load of an object of an object stream. -/
theorem fresh_compressed (hc : Consistent c file secs) {n sn i : Nat} {x : XEntry} (hf : findRead secs n 0 = some x)
    (hk : x.kind = .compressed sn i) {f : Nat} {stm : SObj} {l : List (Nat × Obj)} (h1 : freshLoad c file secs f sn 0 = .ok stm)
    (h2 : objStmContent c (resolveIn c file secs f {}) stm = .ok l) :
    freshLoad c file secs (f + 1) n 0 = .ok (match listed l n with | some o => .direct o | none => .direct .null) := by
  obtain ⟨_, y, off, hy, hyk⟩ := hc.stream n 0 x sn i hf hk
  have hne : n ≠ sn := by
    rintro rfl
    rw [hf] at hy; injection hy with hy; subst hy; rw [hk] at hyk; cases hyk
  unfold freshLoad at h1 ⊢
  rw [step_compressed hf hk f (by rfl)]
  cases hs : loadStep c file secs f {} sn 0 with
  | mk st r =>
    rw [hs] at h1; dsimp only at h1; subst h1
    dsimp only
    -- loading the object stream itself
    have hst : st.streams = [] ∧ st.get n 0 = none := by
      cases f with
      | zero => rw [loadStep] at hs; injection hs with _ hs; cases hs
      | succ f =>
        rw [step_used hy hyk f (by rfl)] at hs
        cases hl : loadAt (fileEnv file (resolveIn c file secs f {})) sn 0 off with
        | error e => rw [hl] at hs; injection hs with _ hs; cases hs
        | ok o =>
          rw [hl] at hs; injection hs with hs _
          subst hs
          refine ⟨by unfold Loaded.set; simp, ?_⟩
          rw [Loaded.get_set, if_neg (by simpa using hne)]; rfl
    rw [if_neg (by rw [hst.1]; simp), h2]
    obtain ⟨st', e1, e2, _⟩ := storeAll_spec (secs := secs) l st (fun y hy => by
      obtain ⟨x', j, a1, a2⟩ := hc.only n 0 x sn i hf hk f stm l (by unfold freshLoad; rw [hs]) h2 y hy
      exact ⟨x', a1, by simp [a2]⟩)
    dsimp only
    rw [e1]
    dsimp only
    rw [e2, if_pos rfl, hst.2]
    cases listed l n <;> rfl

/-- A step from a state of good values. -/
theorem step_spec (hc : Consistent c file secs) : ∀ (f k : Nat) (st : Loaded), LoadInv c file secs k st → ∀ n g,
    LoadInv c file secs (k + f) (loadStep c file secs f st n g).1 ∧
    (∀ o, (loadStep c file secs f st n g).2 = .ok o → freshLoad c file secs (k + f) n g = .ok o) ∧
    (∀ o, freshLoad c file secs f n g = .ok o → (loadStep c file secs f st n g).2 = .ok o) := by
  intro f
  induction f with
  | zero =>
    intro k st hi n g
    refine ⟨by rw [loadStep]; exact hi, fun o h => (by rw [loadStep] at h; cases h), fun o h => ?_⟩
    unfold freshLoad at h; rw [loadStep] at h; cases h
  | succ f ih =>
    intro k st hi n g
    have le1 : ∀ n g i, resolveIn c file secs f st n g = .ok i → resolveIn c file secs (k + f) {} n g = .ok i :=
      resolveIn_le (fun n g o h => (ih k st hi n g).2.1 o h)
    have le2 : ∀ n g i, resolveIn c file secs f {} n g = .ok i → resolveIn c file secs f st n g = .ok i :=
      resolveIn_le (fun n g o h => (ih k st hi n g).2.2 o h)
    cases hf : findRead secs n g with
    | none =>
      rw [step_none hf]
      have hn : ∀ q, freshLoad c file secs (q + 1) n g = .ok (.direct .null) := fun q => by unfold freshLoad; rw [step_none hf]
      exact ⟨hi.mono (by omega), fun o h => by rw [← h]; exact hn _, fun o h => by rw [← h]; exact (hn _).symm⟩
    | some x =>
      have cached : ∀ o, (∀ k, x.kind ≠ .free k) → st.get n g = some o →
          LoadInv c file secs (k + (f + 1)) (loadStep c file secs (f + 1) st n g).1 ∧
          (∀ o, (loadStep c file secs (f + 1) st n g).2 = .ok o → freshLoad c file secs (k + (f + 1)) n g = .ok o) ∧
          (∀ o, freshLoad c file secs (f + 1) n g = .ok o → (loadStep c file secs (f + 1) st n g).2 = .ok o) := by
        intro o hk ho
        rw [step_cached hf hk f ho]
        have hv := hi.values n g o ho
        refine ⟨hi.mono (by omega), fun o' h => ?_, fun o' h => ?_⟩
        · injection h with h; subst h; exact fresh_mono (by omega) hv
        · rw [fresh_unique h hv]
      cases hk : x.kind with
      | free q =>
        rw [step_free hf hk]
        have hn : ∀ q, freshLoad c file secs (q + 1) n g = .ok (.direct .null) := fun q => by
          unfold freshLoad; rw [step_free hf hk]
        exact ⟨hi.mono (by omega), fun o h => by rw [← h]; exact hn _, fun o h => by rw [← h]; exact (hn _).symm⟩
      | used off =>
        cases hg : st.get n g with
        | some o => exact cached o (by simp [hk]) hg
        | none =>
          have hfr : ∀ q, freshLoad c file secs (q + 1) n g =
              (match loadAt (fileEnv file (resolveIn c file secs q {})) n g off with
                | .error e => (({} : Loaded), .error e)
                | .ok o => (({} : Loaded).set n g o, .ok o) : Loaded × Res SObj).2 := fun q => by
            unfold freshLoad; rw [step_used hf hk q (by rfl)]
          rw [step_used hf hk f hg]
          refine ⟨?_, ?_, ?_⟩
          · cases hl : loadAt (fileEnv file (resolveIn c file secs f st)) n g off with
            | error e => exact hi.mono (by omega)
            | ok o =>
              have hv : freshLoad c file secs (k + (f + 1)) n g = .ok o := by
                rw [← Nat.add_assoc, hfr, loadAt_le (fileEnv_le le1) hl]
              dsimp only
              refine ⟨fun m h o' ho' => ?_, fun s hs m y i hy hyk => ?_⟩
              · rw [Loaded.get_set] at ho'
                by_cases he : (m, h) = (n, g)
                · rw [if_pos he] at ho'; injection ho' with ho'; subst ho'
                  injection he with e1 e2; subst e1; subst e2; exact hv
                · rw [if_neg he] at ho'; exact fresh_mono (by omega) (hi.values m h o' ho')
              · rw [Loaded.get_set, if_neg]
                · exact fresh_mono (by omega) (hi.streams s (st.streams_set _ _ _ _ hs) m y i hy hyk)
                · intro he; injection he with e1 e2; subst e1; subst e2
                  rw [hf] at hy; injection hy with hy; subst hy; rw [hk] at hyk; cases hyk
          · intro o h
            cases hl : loadAt (fileEnv file (resolveIn c file secs f st)) n g off with
            | error e => rw [hl] at h; cases h
            | ok o' =>
              rw [hl] at h; injection h with h; subst h
              rw [← Nat.add_assoc, hfr, loadAt_le (fileEnv_le le1) hl]
          · intro o h
            rw [hfr] at h
            cases hl : loadAt (fileEnv file (resolveIn c file secs f {})) n g off with
            | error e => rw [hl] at h; cases h
            | ok o' => rw [hl] at h; rw [loadAt_le (fileEnv_le le2) hl]; exact h
      | compressed sn i =>
        obtain ⟨hg0, y, off, hy, hyk⟩ := hc.stream n g x sn i hf hk
        subst hg0
        have hne : n ≠ sn := by
          rintro rfl
          rw [hf] at hy; injection hy with hy; subst hy; rw [hk] at hyk; cases hyk
        cases hg : st.get n 0 with
        | some o => exact cached o (by simp [hk]) hg
        | none =>
          obtain ⟨i1, i2, i3⟩ := ih k st hi sn 0
          rw [step_compressed hf hk f hg]
          cases hs : loadStep c file secs f st sn 0 with
          | mk st' r =>
            rw [hs] at i1 i2 i3
            dsimp only at i1 i2 i3
            -- the object itself is not loaded by loading the object stream
            have hn' : st'.get n 0 = none := by
              cases f with
              | zero => rw [loadStep] at hs; injection hs with hs _; subst hs; exact hg
              | succ f =>
                cases hq : st.get sn 0 with
                | some o => rw [step_cached hy (by simp [hyk]) f hq] at hs; injection hs with hs _; subst hs; exact hg
                | none =>
                  rw [step_used hy hyk f hq] at hs
                  cases hl : loadAt (fileEnv file (resolveIn c file secs f st)) sn 0 off with
                  | error e => rw [hl] at hs; injection hs with hs _; subst hs; exact hg
                  | ok o =>
                    rw [hl] at hs; injection hs with hs _; subst hs
                    rw [Loaded.get_set, if_neg (by simpa using hne)]; exact hg
            -- a successful first load
            have first : ∀ o, freshLoad c file secs (f + 1) n 0 = .ok o → ∃ stm l, freshLoad c file secs f sn 0 = .ok stm ∧
                objStmContent c (resolveIn c file secs f {}) stm = .ok l ∧
                o = (match listed l n with | some o => .direct o | none => .direct .null) := by
              intro o ho
              have ho' := ho
              unfold freshLoad at ho
              rw [step_compressed hf hk f (by rfl)] at ho
              cases hs0 : loadStep c file secs f {} sn 0 with
              | mk st0 r0 =>
                rw [hs0] at ho
                cases r0 with
                | error e => cases ho
                | ok stm =>
                  dsimp only at ho
                  have hst0 : st0.streams = [] := by
                    cases f with
                    | zero => rw [loadStep] at hs0; injection hs0 with _ hs0; cases hs0
                    | succ f =>
                      rw [step_used hy hyk f (by rfl)] at hs0
                      cases hl : loadAt (fileEnv file (resolveIn c file secs f {})) sn 0 off with
                      | error e => rw [hl] at hs0; injection hs0 with _ hs0; cases hs0
                      | ok o => rw [hl] at hs0; injection hs0 with hs0 _; subst hs0; unfold Loaded.set; simp
                  rw [if_neg (by rw [hst0]; simp)] at ho
                  cases hcn : objStmContent c (resolveIn c file secs f {}) stm with
                  | error e => rw [hcn] at ho; cases ho
                  | ok l =>
                    have hfs : freshLoad c file secs f sn 0 = .ok stm := by unfold freshLoad; rw [hs0]
                    refine ⟨stm, l, hfs, hcn, ?_⟩
                    have := fresh_compressed hc hf hk hfs hcn
                    rw [ho'] at this; injection this
            cases r with
            | error e =>
              refine ⟨i1.mono (by omega), fun o h => (by cases h), fun o h => ?_⟩
              obtain ⟨stm, l, h1, _, _⟩ := first o h
              have := i3 stm h1; cases this
            | ok stm =>
              have hfs := i2 stm rfl
              by_cases hm : sn ∈ st'.streams
              · dsimp only
                rw [if_pos hm]
                have hv := i1.streams sn hm n x i hf hk
                refine ⟨i1.mono (by omega), fun o h => ?_, fun o h => ?_⟩
                · rw [← h]; exact fresh_mono (by omega) hv
                · rw [fresh_unique h hv]
              · dsimp only
                rw [if_neg hm]
                cases hcn : objStmContent c (resolveIn c file secs f st) stm with
                | error e =>
                  refine ⟨i1.mono (by omega), fun o h => (by cases h), fun o h => ?_⟩
                  obtain ⟨stm0, l, h1, h2, _⟩ := first o h
                  have := i3 stm0 h1; injection this with this; subst this
                  rw [objStmContent_le le2 h2] at hcn; cases hcn
                | ok l =>
                  have hcn' := objStmContent_le le1 hcn
                  have honly := hc.only n 0 x sn i hf hk (k + f) stm l hfs hcn'
                  obtain ⟨st'', e1, e2, e3⟩ := storeAll_spec (secs := secs) l st' (fun y hy => by
                    obtain ⟨x', j, a1, a2⟩ := honly y hy
                    exact ⟨x', a1, by simp [a2]⟩)
                  dsimp only
                  rw [e1]
                  dsimp only
                  have hval : ∀ {m : Nat} {z : XEntry} {j : Nat}, findRead secs m 0 = some z → z.kind = .compressed sn j →
                      freshLoad c file secs (k + (f + 1)) m 0 = .ok (match listed l m with | some o => .direct o | none => .direct .null) :=
                    fun h1 h2 => fresh_compressed hc h1 h2 hfs hcn'
                  have hres : (st''.get n 0).getD (.direct .null) = (match listed l n with | some o => .direct o | none => .direct .null) := by
                    rw [e2, if_pos rfl, hn']; cases listed l n <;> rfl
                  refine ⟨⟨fun m h o ho => ?_, fun s hs' m z j hz hzk => ?_⟩, fun o h => ?_, fun o h => ?_⟩
                  · have ho : st''.get m h = some o := ho
                    rw [e2] at ho
                    by_cases hh : h = 0
                    · subst hh
                      rw [if_pos rfl] at ho
                      cases hl : listed l m with
                      | none => rw [hl] at ho; exact fresh_mono (by omega) (i1.values m 0 o ho)
                      | some o' =>
                        rw [hl] at ho; injection ho with ho; subst ho
                        obtain ⟨w, hw, rfl⟩ := listed_mem hl
                        obtain ⟨z, j, a1, a2⟩ := honly w hw
                        have := hval a1 a2
                        rw [hl] at this; exact this
                    · rw [if_neg hh] at ho; exact fresh_mono (by omega) (i1.values m h o ho)
                  · show freshLoad c file secs (k + (f + 1)) m 0 = .ok ((st''.get m 0).getD (.direct .null))
                    rw [e2, if_pos rfl]
                    rcases List.mem_cons.mp hs' with hs' | hs'
                    · subst hs'
                      rw [hval hz hzk]
                      cases hl : listed l m with
                      | some o' => rfl
                      | none =>
                        dsimp only
                        cases hq : st'.get m 0 with
                        | none => rfl
                        | some o' =>
                          have h1 := fresh_mono (show k + f ≤ k + (f + 1) by omega) (i1.values m 0 o' hq)
                          have h2 := hval hz hzk
                          rw [hl, h1] at h2; injection h2 with h2; rw [h2]; rfl
                    · cases hl : listed l m with
                      | none => exact fresh_mono (by omega) (i1.streams s (e3 s hs') m z j hz hzk)
                      | some o' =>
                        obtain ⟨w, hw, rfl⟩ := listed_mem hl
                        obtain ⟨z', j', a1, a2⟩ := honly w hw
                        rw [hz] at a1; injection a1 with a1; subst a1
                        have := hval hz a2
                        rw [hl] at this; exact this
                  · injection h with h; rw [← h, hres]; exact hval hf hk
                  · rw [hres]
                    obtain ⟨stm0, l0, h1, h2, h3⟩ := first o h
                    have := i3 stm0 h1; injection this with this; subst this
                    have h4 := objStmContent_le le2 h2
                    rw [hcn] at h4; injection h4 with h4; subst h4
                    rw [h3]

theorem loadAll_inv (hc : Consistent c file secs) (f : Nat) (l : List (Nat × Nat)) : ∀ (k : Nat) (st : Loaded),
    LoadInv c file secs k st → ∃ k', LoadInv c file secs k' (loadAll c file secs f st l) := by
  induction l with
  | nil => intro k st h; exact ⟨k, h⟩
  | cons a l ih =>
    intro k st h
    obtain ⟨n, g⟩ := a
    exact ih _ _ (step_spec hc f k st h n g).1

end VPdf
