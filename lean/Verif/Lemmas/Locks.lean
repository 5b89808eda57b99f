import Verif.Spec.Locks
/-
  Threads that take their locks in one order do not wait for each other.
-/
namespace VPdf
open Spec

/-- The order in which locks are taken; reference objects have numbers below `B`. -/
def lockRank (B : Nat) : Mutex → Nat
  | .ref r => r
  | .stm => B
  | .entry _ => B + 1
  | .body _ => B + 1
  | .input => B + 2

/-- All locks in `h` come before the rank `k`. -/
def RankBelow (B : Nat) (h : List Mutex) (k : Nat) : Prop := ∀ x ∈ h, lockRank B x < k

/-- A thread that has the locks `h`, the newest first, takes the others in order and gives all of them back. -/
def Orderly (L : Layout) (B : Nat) : List Mutex → List Act → Prop
  | h, [] => h = []
  | h, .acquire l :: r => (l ∈ h ∨ RankBelow B h (lockRank B l)) ∧ Orderly L B (l :: h) r
  | h, .release l :: r => ∃ h', h = l :: h' ∧ Orderly L B h' r
  | h, .load n :: r => (match L.place n with
      | .used _ => RankBelow B h (B + 1)
      | .packed _ => RankBelow B h B) ∧ Orderly L B h r
  | h, .loadLocked n :: r => ∃ h', h = .entry n :: h' ∧ RankBelow B h (B + 2) ∧ Orderly L B h' r
  | h, .mark _ :: r => Orderly L B h r
  | h, .unpackLocked s :: r => ∃ h', h = .stm :: h' ∧ RankBelow B h' B ∧ (∃ k, L.place s = .used k) ∧ Orderly L B h' r
  | h, .markUnpacked _ :: r => Orderly L B h r
  | h, .read _ :: r => RankBelow B h (B + 1) ∧ Orderly L B h r
  | h, .readLocked n :: r => ∃ h', h = .body n :: h' ∧ RankBelow B h (B + 2) ∧ Orderly L B h' r
  | h, .markRead _ :: r => Orderly L B h r

theorem RankBelow.mono {B : Nat} {h : List Mutex} {k k' : Nat} (hb : RankBelow B h k) (hk : k ≤ k') : RankBelow B h k' :=
  fun x hx => Nat.lt_of_lt_of_le (hb x hx) hk

theorem RankBelow.cons {B : Nat} {h : List Mutex} {k : Nat} {l : Mutex} (hl : lockRank B l < k) (hb : RankBelow B h k) : RankBelow B (l :: h) k := by
  intro x hx
  rcases List.mem_cons.mp hx with rfl | hx
  · exact hl
  · exact hb x hx

/-- The locks of a thread after an action. -/
def heldAfter (h : List Mutex) : Act → List Mutex
  | .acquire l => l :: h
  | .release _ => h.tail
  | _ => h

section
variable {L : Layout} {B : Nat}

theorem orderly_loads {h : List Mutex} {l : List Nat} (hl : ∀ n ∈ l, ∃ k, L.place n = .used k) (hb : RankBelow B h (B + 1)) {r : List Act}
    (hr : Orderly L B h r) : Orderly L B h (l.map .load ++ r) := by
  induction l with
  | nil => exact hr
  | cons n l ih =>
    obtain ⟨k, hk⟩ := hl n (by simp)
    refine ⟨by rw [hk]; exact hb, ih fun m hm => hl m (by simp [hm])⟩

theorem orderly_members {h : List Mutex} {l : List Nat} (hb : RankBelow B h (B + 1)) {r : List Act} (hr : Orderly L B h r) :
    Orderly L B h (l.flatMap (fun m => [.acquire (.entry m), .mark m, .release (.entry m)]) ++ r) := by
  induction l with
  | nil => exact hr
  | cons n l ih => exact ⟨Or.inr hb, h, rfl, ih⟩

theorem lengthOf_nil (hL : NoNesting L) (n : Nat) : L.lengthOf n = [] := by
  unfold Layout.lengthOf
  cases hp : L.place n with
  | packed s => rfl
  | used k =>
    cases k with
    | none => rfl
    | some k => exact absurd hp (hL.length n k)

theorem orderly_perform (hL : NoNesting L) {i : Nat} {sh sh' : Shared} {a : Act} {more r : List Act} {h : List Mutex}
    (hp : perform L i sh a = some (sh', more)) (ho : Orderly L B h (a :: r)) : Orderly L B (heldAfter h a) (more ++ r) := by
  cases a with
  | acquire l =>
    simp only [perform, Option.map_eq_some_iff, Prod.mk.injEq] at hp
    obtain ⟨_, _, _, rfl⟩ := hp
    exact ho.2
  | release l =>
    simp only [perform, Option.map_eq_some_iff, Prod.mk.injEq] at hp
    obtain ⟨_, _, _, rfl⟩ := hp
    obtain ⟨h', rfl, ho⟩ := ho
    exact ho
  | load n =>
    obtain ⟨h1, ho⟩ := ho
    rw [perform] at hp
    by_cases hl : sh.loaded n = true
    · rw [if_pos hl] at hp; injection hp with hp; injection hp with _ hp; subst hp; exact ho
    · rw [if_neg hl] at hp
      cases hk : L.place n with
      | used k =>
        rw [hk] at hp h1
        injection hp with hp; injection hp with _ hp; subst hp
        exact ⟨Or.inr h1, h, rfl, RankBelow.cons (by simp [lockRank]) (h1.mono (by omega)), ho⟩
      | packed s =>
        rw [hk] at hp h1
        injection hp with hp; injection hp with _ hp; subst hp
        obtain ⟨k, hs⟩ := hL.stream n s hk
        refine ⟨Or.inr h1, ⟨?_, h, rfl, h1, ⟨k, hs⟩, ho⟩⟩
        rw [hs]
        exact RankBelow.cons (by simp [lockRank]) (h1.mono (by omega))
  | loadLocked n =>
    obtain ⟨h', rfl, h1, ho⟩ := ho
    rw [perform] at hp
    by_cases hl : sh.loaded n = true
    · rw [if_pos hl] at hp; injection hp with hp; injection hp with _ hp; subst hp; exact ⟨h', rfl, ho⟩
    · rw [if_neg hl, lengthOf_nil hL] at hp; injection hp with hp; injection hp with _ hp; subst hp
      exact ⟨Or.inr h1, _, rfl, _, rfl, ho⟩
  | mark n => injection hp with hp; injection hp with _ hp; subst hp; exact ho
  | unpackLocked s =>
    obtain ⟨h', rfl, h1, ⟨k, hs⟩, ho⟩ := ho
    rw [perform] at hp
    by_cases hl : sh.unpacked s = true
    · rw [if_pos hl] at hp; injection hp with hp; injection hp with _ hp; subst hp; exact ⟨h', rfl, ho⟩
    · rw [if_neg hl] at hp; injection hp with hp; injection hp with _ hp; subst hp
      have hb : RankBelow B (.stm :: h') (B + 1) := RankBelow.cons (by simp [lockRank]) (h1.mono (by omega))
      rw [List.append_assoc, List.append_assoc, List.append_assoc]
      refine orderly_loads (hL.heads s) hb ⟨hb, ?_⟩
      exact orderly_members hb ⟨h', rfl, ho⟩
  | markUnpacked s => injection hp with hp; injection hp with _ hp; subst hp; exact ho
  | read n =>
    obtain ⟨h1, ho⟩ := ho
    rw [perform] at hp
    by_cases hl : sh.bodies n = true
    · rw [if_pos hl] at hp; injection hp with hp; injection hp with _ hp; subst hp; exact ho
    · rw [if_neg hl] at hp; injection hp with hp; injection hp with _ hp; subst hp
      exact ⟨Or.inr h1, h, rfl, RankBelow.cons (by simp [lockRank]) (h1.mono (by omega)), ho⟩
  | readLocked n =>
    obtain ⟨h', rfl, h1, ho⟩ := ho
    rw [perform] at hp
    by_cases hl : sh.bodies n = true
    · rw [if_pos hl] at hp; injection hp with hp; injection hp with _ hp; subst hp; exact ⟨h', rfl, ho⟩
    · rw [if_neg hl, lengthOf_nil hL] at hp; injection hp with hp; injection hp with _ hp; subst hp
      exact ⟨Or.inr h1, _, rfl, _, rfl, ho⟩
  | markRead n => injection hp with hp; injection hp with _ hp; subst hp; exact ho

/-! ### who has which lock -/

/-- `held i` are the locks of thread `i`. -/
def Owners (sh : Shared) (held : Nat → List Mutex) : Prop :=
  ∀ l, match sh.owner l with
    | none => ∀ i, l ∉ held i
    | some (j, k) => 0 < k ∧ (held j).count l = k ∧ ∀ i, i ≠ j → l ∉ held i

theorem Owners.unique {sh : Shared} {held : Nat → List Mutex} (ho : Owners sh held) {l : Mutex} {i j : Nat} (hi : l ∈ held i)
    (hj : l ∈ held j) : i = j := by
  have := ho l
  cases h : sh.owner l with
  | none => rw [h] at this; exact absurd hi (this i)
  | some x =>
    obtain ⟨j', k⟩ := x
    rw [h] at this
    have h1 : i = j' := Decidable.byContradiction fun hne => this.2.2 i hne hi
    have h2 : j = j' := Decidable.byContradiction fun hne => this.2.2 j hne hj
    omega

theorem owners_perform {i : Nat} {sh sh' : Shared} {a : Act} {more : List Act} {held : Nat → List Mutex}
    (hp : perform L i sh a = some (sh', more)) (hw : Owners sh held) (ho : ∀ l, a = .release l → ∃ h', held i = l :: h') :
    Owners sh' (fun j => if j = i then heldAfter (held i) a else held j) := by
  have same : sh'.owner = sh.owner → heldAfter (held i) a = held i → Owners sh' (fun j => if j = i then heldAfter (held i) a else held j) := by
    intro h1 h2
    have : (fun j => if j = i then heldAfter (held i) a else held j) = held := by
      funext j; by_cases hj : j = i
      · rw [if_pos hj, h2, hj]
      · rw [if_neg hj]
    rw [this]
    intro l; rw [h1]; exact hw l
  cases a with
  | acquire l =>
    simp only [perform, Option.map_eq_some_iff, Prod.mk.injEq] at hp
    obtain ⟨sh1, hk, rfl, rfl⟩ := hp
    unfold Shared.lock at hk
    intro x
    have hx := hw x
    have hcount : ∀ j, j ≠ i → (if j = i then heldAfter (held i) (.acquire l) else held j) = held j := fun j hj => if_neg hj
    cases hl : sh.owner l with
    | none =>
      rw [hl] at hk; injection hk with hk; subst hk
      dsimp only
      by_cases hxl : x = l
      · subst hxl
        rw [hl] at hx
        rw [if_pos rfl]
        refine ⟨by omega, ?_, fun j hj => ?_⟩
        · rw [if_pos rfl]; simp [heldAfter, List.count_eq_zero.mpr (hx i)]
        · rw [if_neg hj]; exact hx j
      · rw [if_neg hxl]
        cases hox : sh.owner x with
        | none =>
          rw [hox] at hx
          intro j
          by_cases hj : j = i
          · rw [if_pos hj]; simp [heldAfter, hxl, hx i]
          · rw [if_neg hj]; exact hx j
        | some y =>
          obtain ⟨j', k⟩ := y
          rw [hox] at hx
          refine ⟨hx.1, ?_, fun j hj => ?_⟩
          · by_cases hj : j' = i
            · subst hj; rw [if_pos rfl]; simp only [heldAfter]; rw [List.count_cons_of_ne (Ne.symm hxl)]; exact hx.2.1
            · rw [if_neg hj]; exact hx.2.1
          · by_cases hj' : j = i
            · rw [if_pos hj']; simp only [heldAfter, List.mem_cons, not_or]; exact ⟨hxl, by rw [← hj']; exact hx.2.2 j hj⟩
            · rw [if_neg hj']; exact hx.2.2 j hj
    | some z =>
      obtain ⟨jz, kz⟩ := z
      rw [hl] at hk
      dsimp only at hk
      by_cases hji : jz = i
      · rw [if_pos hji] at hk; injection hk with hk; subst hk
        subst hji
        dsimp only
        by_cases hxl : x = l
        · subst hxl
          rw [hl] at hx
          rw [if_pos rfl]
          refine ⟨by omega, ?_, fun j hj => ?_⟩
          · rw [if_pos rfl]; simp only [heldAfter, List.count_cons_self]; rw [hx.2.1]
          · rw [if_neg hj]; exact hx.2.2 j hj
        · rw [if_neg hxl]
          cases hox : sh.owner x with
          | none =>
            rw [hox] at hx
            intro j
            by_cases hj : j = jz
            · rw [if_pos hj]; simp [heldAfter, hxl, hx jz]
            · rw [if_neg hj]; exact hx j
          | some y =>
            obtain ⟨j', k⟩ := y
            rw [hox] at hx
            refine ⟨hx.1, ?_, fun j hj => ?_⟩
            · by_cases hj : j' = jz
              · subst hj; rw [if_pos rfl]; simp only [heldAfter]; rw [List.count_cons_of_ne (Ne.symm hxl)]; exact hx.2.1
              · rw [if_neg hj]; exact hx.2.1
            · by_cases hj' : j = jz
              · rw [if_pos hj']; simp only [heldAfter, List.mem_cons, not_or]; exact ⟨hxl, by rw [← hj']; exact hx.2.2 j hj⟩
              · rw [if_neg hj']; exact hx.2.2 j hj
      · rw [if_neg hji] at hk; cases hk
  | release l =>
    simp only [perform, Option.map_eq_some_iff, Prod.mk.injEq] at hp
    obtain ⟨sh1, hk, rfl, rfl⟩ := hp
    obtain ⟨h', hh⟩ := ho l rfl
    unfold Shared.unlock at hk
    have hl := hw l
    cases hol : sh.owner l with
    | none => rw [hol] at hk; cases hk
    | some z =>
      obtain ⟨j, k⟩ := z
      rw [hol] at hk hl
      cases k with
      | zero => cases hk
      | succ k =>
        dsimp only at hk
        by_cases hji : j = i
        · rw [if_pos hji] at hk; injection hk with hk; subst hk
          subst hji
          have hc : h'.count l = k := by
            have := hl.2.1
            rw [hh, List.count_cons_self] at this
            omega
          intro x
          dsimp only
          by_cases hxl : x = l
          · subst hxl
            rw [if_pos rfl]
            by_cases hk0 : k = 0
            · rw [if_pos hk0]
              intro i
              by_cases hi : i = j
              · rw [if_pos hi]; simp only [heldAfter, hh, List.tail_cons]
                rw [← List.count_eq_zero]; omega
              · rw [if_neg hi]; exact hl.2.2 i hi
            · rw [if_neg hk0]
              refine ⟨by omega, ?_, fun i hi => ?_⟩
              · rw [if_pos rfl]; simp only [heldAfter, hh, List.tail_cons]; exact hc
              · rw [if_neg hi]; exact hl.2.2 i hi
          · rw [if_neg hxl]
            have hx := hw x
            have hcx : h'.count x = (held j).count x := by rw [hh, List.count_cons_of_ne (Ne.symm hxl)]
            cases hox : sh.owner x with
            | none =>
              rw [hox] at hx
              intro i
              by_cases hi : i = j
              · rw [if_pos hi]; simp only [heldAfter, hh, List.tail_cons]
                intro hm; exact hx j (by rw [hh]; simp [hm])
              · rw [if_neg hi]; exact hx i
            | some y =>
              obtain ⟨j', k'⟩ := y
              rw [hox] at hx
              refine ⟨hx.1, ?_, fun i hi => ?_⟩
              · by_cases hj : j' = j
                · subst hj; rw [if_pos rfl]; simp only [heldAfter, hh, List.tail_cons]; rw [hcx]; exact hx.2.1
                · rw [if_neg hj]; exact hx.2.1
              · by_cases hi' : i = j
                · rw [if_pos hi']; simp only [heldAfter, hh, List.tail_cons]
                  intro hm; exact hx.2.2 j (by rw [← hi']; exact hi) (by rw [hh]; simp [hm])
                · rw [if_neg hi']; exact hx.2.2 i hi
        · rw [if_neg hji] at hk; cases hk
  | load n =>
    refine same ?_ rfl
    rw [perform] at hp
    by_cases hl : sh.loaded n = true
    · rw [if_pos hl] at hp; injection hp with hp; injection hp with hp _; rw [← hp]
    · rw [if_neg hl] at hp
      cases hk : L.place n <;> rw [hk] at hp <;> injection hp with hp <;> injection hp with hp _ <;> rw [← hp]
  | loadLocked n =>
    refine same ?_ rfl
    rw [perform] at hp
    by_cases hl : sh.loaded n = true
    · rw [if_pos hl] at hp; injection hp with hp; injection hp with hp _; rw [← hp]
    · rw [if_neg hl] at hp; injection hp with hp; injection hp with hp _; rw [← hp]
  | mark n => refine same ?_ rfl; injection hp with hp; injection hp with hp _; rw [← hp]
  | unpackLocked s =>
    refine same ?_ rfl
    rw [perform] at hp
    by_cases hl : sh.unpacked s = true
    · rw [if_pos hl] at hp; injection hp with hp; injection hp with hp _; rw [← hp]
    · rw [if_neg hl] at hp; injection hp with hp; injection hp with hp _; rw [← hp]
  | markUnpacked s => refine same ?_ rfl; injection hp with hp; injection hp with hp _; rw [← hp]
  | read n =>
    refine same ?_ rfl
    rw [perform] at hp
    by_cases hl : sh.bodies n = true
    · rw [if_pos hl] at hp; injection hp with hp; injection hp with hp _; rw [← hp]
    · rw [if_neg hl] at hp; injection hp with hp; injection hp with hp _; rw [← hp]
  | readLocked n =>
    refine same ?_ rfl
    rw [perform] at hp
    by_cases hl : sh.bodies n = true
    · rw [if_pos hl] at hp; injection hp with hp; injection hp with hp _; rw [← hp]
    · rw [if_neg hl] at hp; injection hp with hp; injection hp with hp _; rw [← hp]
  | markRead n => refine same ?_ rfl; injection hp with hp; injection hp with hp _; rw [← hp]

/-- Only a lock of another thread makes a thread wait. -/
theorem perform_waits {i : Nat} {sh : Shared} {a : Act} {held : Nat → List Mutex} (hw : Owners sh held)
    (ho : ∀ l, a = .release l → ∃ h', held i = l :: h') (hp : perform L i sh a = none) :
    ∃ l j, a = .acquire l ∧ j ≠ i ∧ l ∈ held j := by
  cases a with
  | acquire l =>
    simp only [perform, Option.map_eq_none_iff] at hp
    unfold Shared.lock at hp
    have hl := hw l
    cases hol : sh.owner l with
    | none => rw [hol] at hp; cases hp
    | some z =>
      obtain ⟨j, k⟩ := z
      rw [hol] at hp hl
      dsimp only at hp
      by_cases hji : j = i
      · rw [if_pos hji] at hp; cases hp
      · have hj : l ∈ held j := by rw [← List.count_pos_iff, hl.2.1]; exact hl.1
        exact ⟨l, j, rfl, hji, hj⟩
  | release l =>
    exfalso
    simp only [perform, Option.map_eq_none_iff] at hp
    obtain ⟨h', hh⟩ := ho l rfl
    unfold Shared.unlock at hp
    have hl := hw l
    have hmem : l ∈ held i := by rw [hh]; simp
    cases hol : sh.owner l with
    | none => rw [hol] at hl; exact hl i hmem
    | some z =>
      obtain ⟨j, k⟩ := z
      rw [hol] at hp hl
      cases k with
      | zero => exact absurd hl.1 (by omega)
      | succ k =>
        dsimp only at hp
        have : j = i := Decidable.byContradiction fun hne => hl.2.2 i (Ne.symm hne) hmem
        rw [if_pos this] at hp; cases hp
  | load n =>
    exfalso
    rw [perform] at hp
    by_cases hl : sh.loaded n = true
    · rw [if_pos hl] at hp; cases hp
    · rw [if_neg hl] at hp
      cases hk : L.place n <;> rw [hk] at hp <;> cases hp
  | loadLocked n => exfalso; rw [perform] at hp; split at hp <;> cases hp
  | mark n => cases hp
  | unpackLocked s => exfalso; rw [perform] at hp; split at hp <;> cases hp
  | markUnpacked s => cases hp
  | read n => exfalso; rw [perform] at hp; split at hp <;> cases hp
  | readLocked n => exfalso; rw [perform] at hp; split at hp <;> cases hp
  | markRead n => cases hp

theorem Orderly.released {h : List Mutex} {a : Act} {r : List Act} (ho : Orderly L B h (a :: r)) (l : Mutex) (ha : a = .release l) :
    ∃ h', h = l :: h' := by
  subst ha
  obtain ⟨h', hh, _⟩ := ho
  exact ⟨h', hh⟩

theorem orderly_waits {i : Nat} {sh : Shared} {a : Act} {r : List Act} {held : Nat → List Mutex} (hw : Owners sh held)
    (ho : Orderly L B (held i) (a :: r)) (hp : perform L i sh a = none) :
    ∃ l j, a = .acquire l ∧ j ≠ i ∧ l ∈ held j ∧ RankBelow B (held i) (lockRank B l) := by
  obtain ⟨l, j, rfl, hji, hj⟩ := perform_waits hw ho.released hp
  refine ⟨l, j, rfl, hji, hj, ?_⟩
  rcases ho.1 with h | h
  · exact absurd (hw.unique h hj) (Ne.symm hji)
  · exact h

/-! ### all threads -/

/-- The invariant: who has which lock, and every thread is orderly. -/
def Sorted (L : Layout) (B : Nat) (t : Threads) (held : Nat → List Mutex) : Prop :=
  Owners t.sh held ∧ (∀ i l, t.todo[i]? = some l → Orderly L B (held i) l) ∧ ∀ i, t.todo[i]? = none → held i = []

theorem step_parts {t t' : Threads} {i : Nat} (h : t.step L i = some t') : ∃ a rest sh more, t.todo[i]? = some (a :: rest) ∧
    perform L i t.sh a = some (sh, more) ∧ t' = ⟨sh, t.todo.set i (more ++ rest)⟩ := by
  unfold Threads.step at h
  cases hi : t.todo[i]? with
  | none => rw [hi] at h; cases h
  | some l =>
    cases l with
    | nil => rw [hi] at h; cases h
    | cons a rest =>
      rw [hi] at h
      simp only [Option.map_eq_some_iff] at h
      obtain ⟨⟨sh, more⟩, h1, h2⟩ := h
      exact ⟨a, rest, sh, more, rfl, h1, h2.symm⟩

theorem sorted_perform (hL : NoNesting L) {t : Threads} {i : Nat} {held : Nat → List Mutex} {a : Act} {rest more : List Act} {sh : Shared}
    (hs : Sorted L B t held) (h1 : t.todo[i]? = some (a :: rest)) (h2 : perform L i t.sh a = some (sh, more)) :
    Sorted L B ⟨sh, t.todo.set i (more ++ rest)⟩ (fun j => if j = i then heldAfter (held i) a else held j) := by
  obtain ⟨k1, k2, k3⟩ := hs
  have ho := k2 i _ h1
  have hlt : i < t.todo.length := (List.getElem?_eq_some_iff.mp h1).1
  refine ⟨owners_perform h2 k1 ho.released, fun j l hj => ?_, fun j hj => ?_⟩
  · dsimp only at hj ⊢
    by_cases hji : j = i
    · subst hji
      rw [List.getElem?_set_self hlt] at hj
      injection hj with hj; subst hj
      rw [if_pos rfl]; exact orderly_perform hL h2 ho
    · rw [if_neg hji]
      rw [List.getElem?_set_ne (Ne.symm hji)] at hj
      exact k2 j l hj
  · dsimp only at hj
    have hji : j ≠ i := by
      rintro rfl; rw [List.getElem?_set_self hlt] at hj; cases hj
    rw [List.getElem?_set_ne (Ne.symm hji)] at hj
    show (if j = i then _ else _) = _
    rw [if_neg hji]; exact k3 j hj

theorem sorted_step (hL : NoNesting L) {t t' : Threads} {i : Nat} {held : Nat → List Mutex} (hs : Sorted L B t held)
    (h : t.step L i = some t') : ∃ held', Sorted L B t' held' := by
  obtain ⟨a, rest, sh, more, h1, h2, rfl⟩ := step_parts h
  exact ⟨_, sorted_perform hL hs h1 h2⟩

/-- Without a thread that can go on, all have returned. -/
theorem sorted_progress {t : Threads} {held : Nat → List Mutex} (hs : Sorted L B t held) (hstep : ∀ i, t.step L i = none) :
    AllReturned t := by
  obtain ⟨k1, k2, k3⟩ := hs
  have wait : ∀ (i : Nat) (a : Act) (rest : List Act), t.todo[i]? = some (a :: rest) → ∃ (l : Mutex) (j : Nat) (a' : Act) (rest' : List Act), a = Act.acquire l ∧ t.todo[j]? = some (a' :: rest') ∧
      ∃ l', a' = Act.acquire l' ∧ lockRank B l < lockRank B l' := by
    intro i a rest hi
    have blocked : ∀ (i : Nat) (a : Act) (rest : List Act), t.todo[i]? = some (a :: rest) → perform L i t.sh a = none := by
      intro i a rest hi
      have := hstep i
      unfold Threads.step at this
      rw [hi] at this
      simpa using this
    obtain ⟨l, j, e1, e2, e3, _⟩ := orderly_waits k1 (k2 i _ hi) (blocked i a rest hi)
    cases hj : t.todo[j]? with
    | none => rw [k3 j hj] at e3; cases e3
    | some m =>
      have oj := k2 j m hj
      cases m with
      | nil => rw [show held j = [] from oj] at e3; cases e3
      | cons a' rest' =>
        obtain ⟨l', _, f1, _, _, f4⟩ := orderly_waits k1 oj (blocked j a' rest' hj)
        exact ⟨l, j, a', rest', e1, hj, l', f1, f4 l e3⟩
  have bound : ∀ l, lockRank B l < (match l with | .ref r => r | _ => 0) + B + 3 := by
    intro l; cases l <;> simp only [lockRank] <;> omega
  -- no thread waits for a lock of any rank
  have none : ∀ (k i : Nat) (l : Mutex) (rest : List Act), t.todo[i]? = some (.acquire l :: rest) → (∀ m ∈ t.todo, ∀ l r, m = .acquire l :: r → lockRank B l ≤ k) →
      ∀ d, k - lockRank B l = d → False := by
    intro k i l rest hi hk d
    induction d using Nat.strongRecOn generalizing i l rest with
    | _ d ih =>
      intro hd
      obtain ⟨l1, j, a', rest', e1, e2, l', e3, e4⟩ := wait i _ rest hi
      injection e1 with e1; subst e1
      subst e3
      have h1 := hk _ (List.mem_of_getElem? hi) l rest rfl
      have h2 := hk _ (List.mem_of_getElem? e2) l' rest' rfl
      exact ih (k - lockRank B l') (by omega) j l' rest' e2 rfl
  have top : ∀ ts : List (List Act), ∃ k, ∀ m ∈ ts, ∀ l r, m = Act.acquire l :: r → lockRank B l ≤ k := by
    intro ts
    induction ts with
    | nil => exact ⟨0, by simp⟩
    | cons m ts ih =>
      obtain ⟨k, hk⟩ := ih
      have : ∃ k0, ∀ l r, m = Act.acquire l :: r → lockRank B l ≤ k0 := by
        cases m with
        | nil => exact ⟨0, fun l r h => by cases h⟩
        | cons a r =>
          cases a with
          | acquire l => exact ⟨lockRank B l, fun l' r' h => by injection h with h; injection h with h; subst h; exact Nat.le_refl _⟩
          | _ => exact ⟨0, fun l r h => by injection h with h; cases h⟩
      obtain ⟨k0, hk0⟩ := this
      refine ⟨k + k0, fun m' hm' l r he => ?_⟩
      rcases List.mem_cons.mp hm' with rfl | hm'
      · have := hk0 l r he; omega
      · have := hk m' hm' l r he; omega
  intro m hm
  obtain ⟨i, hi⟩ := List.getElem?_of_mem hm
  cases m with
  | nil => rfl
  | cons a rest =>
    exfalso
    obtain ⟨l, _, _, _, e1, _⟩ := wait i a rest hi
    subst e1
    obtain ⟨k, hk⟩ := top t.todo
    exact none k i l rest hi hk _ rfl

/-! ### the start -/

/-- A bound above the reference objects of a call. -/
def Call.bound : Call → Nat
  | .follow r _ => r + 1
  | .compare a b => a + b + 1
  | _ => 0

theorem orderly_call {c : Call} (hc : Ascending c) (hb : c.bound ≤ B) {r : List Act} (hr : Orderly L B [] r) :
    Orderly L B [] (c.acts ++ r) := by
  have nil : ∀ k, RankBelow B [] k := fun k x hx => nomatch hx
  have hload : ∀ n : Nat, (match L.place n with
      | .used _ => RankBelow B [] (B + 1)
      | .packed _ => RankBelow B [] B) := by
    intro n; cases L.place n <;> exact nil _
  cases c with
  | object n => exact ⟨hload n, hr⟩
  | data n => exact ⟨hload n, nil _, hr⟩
  | follow r' n =>
    have hb' : r' + 1 ≤ B := hb
    refine ⟨Or.inr (nil _), ?_, [], rfl, hr⟩
    have hB : RankBelow B [Mutex.ref r'] B := RankBelow.cons (by simp only [lockRank]; omega) (nil _)
    cases L.place n with
    | used k => exact hB.mono (by omega)
    | packed s => exact hB
  | compare a b =>
    have hab : a ≤ b := hc
    refine ⟨Or.inr (nil _), ?_, _, rfl, _, rfl, hr⟩
    by_cases he : a = b
    · left; simp [he]
    · right; exact RankBelow.cons (by simp only [lockRank]; omega) (nil _)

theorem orderly_calls {l : List Call} (hc : ∀ c ∈ l, Ascending c) (hb : ∀ c ∈ l, c.bound ≤ B) : Orderly L B [] (l.flatMap Call.acts) := by
  induction l with
  | nil => rfl
  | cons c l ih =>
    rw [List.flatMap_cons]
    exact orderly_call (hc c (by simp)) (hb c (by simp)) (ih (fun c h => hc c (by simp [h])) fun c h => hb c (by simp [h]))

theorem inOrder_start {calls : List (List Call)} (hc : ∀ l ∈ calls, ∀ c ∈ l, Ascending c) (hb : ∀ l ∈ calls, ∀ c ∈ l, c.bound ≤ B) :
    Sorted L B (Threads.start calls) (fun _ => []) := by
  refine ⟨fun l i => by simp, fun i l hi => ?_, fun _ _ => rfl⟩
  unfold Threads.start at hi
  rw [List.getElem?_map] at hi
  cases hl : calls[i]? with
  | none => rw [hl] at hi; cases hi
  | some m =>
    rw [hl] at hi
    injection hi with hi; subst hi
    have := List.mem_of_getElem? hl
    exact orderly_calls (hc m this) (hb m this)

theorem bound_exists (calls : List (List Call)) : ∃ B, ∀ l ∈ calls, ∀ c ∈ l, c.bound ≤ B := by
  refine ⟨(calls.flatten.map Call.bound).sum, fun l hl c hc => ?_⟩
  have hm : c ∈ calls.flatten := List.mem_flatten.mpr ⟨l, hl, hc⟩
  generalize calls.flatten = cs at hm
  clear hl hc
  induction cs with
  | nil => cases hm
  | cons d cs ih =>
    rw [List.map_cons, List.sum_cons]
    rcases List.mem_cons.mp hm with rfl | hm
    · omega
    · have := ih hm; omega

theorem run_inOrder (hL : NoNesting L) : ∀ (sched : List Nat) {t t' : Threads} {held : Nat → List Mutex}, Sorted L B t held →
    t.run L sched = some t' → ∃ held', Sorted L B t' held'
  | [], t, t', held, hs, h => by injection h with h; subst h; exact ⟨held, hs⟩
  | i :: l, t, t', held, hs, h => by
    rw [Threads.run, Option.bind_eq_some_iff] at h
    obtain ⟨u, h1, h2⟩ := h
    obtain ⟨held', hs'⟩ := sorted_step hL hs h1
    exact run_inOrder hL l hs' h2

/-! ### every run ends -/

/-- How many steps an action takes at most. -/
def Act.weight (L : Layout) : Act → Nat
  | .load n => match L.place n with
    | .used _ => 7
    | .packed s => 19 + 7 * (L.heads s).length + 3 * (L.members s).length
  | .loadLocked _ => 5
  | .unpackLocked s => 10 + 7 * (L.heads s).length + 3 * (L.members s).length
  | .read _ => 7
  | .readLocked _ => 5
  | _ => 1

/-- How many steps a list of actions takes at most. -/
def weightOf (L : Layout) (l : List Act) : Nat := (l.map (Act.weight L)).sum

theorem weightOf_append (l m : List Act) : weightOf L (l ++ m) = weightOf L l + weightOf L m := by
  unfold weightOf; rw [List.map_append, List.sum_append]

theorem weightOf_cons (a : Act) (m : List Act) : weightOf L (a :: m) = a.weight L + weightOf L m := by
  unfold weightOf; rw [List.map_cons, List.sum_cons]

theorem weightOf_nil : weightOf L [] = 0 := rfl

theorem weight_loads {l : List Nat} (hl : ∀ n ∈ l, ∃ k, L.place n = .used k) : weightOf L (l.map .load) = 7 * l.length := by
  induction l with
  | nil => rfl
  | cons n l ih =>
    obtain ⟨k, hk⟩ := hl n (by simp)
    rw [List.map_cons, weightOf_cons, ih fun m hm => hl m (by simp [hm]), List.length_cons]
    simp only [Act.weight, hk]; omega

theorem weight_members (l : List Nat) :
    weightOf L (l.flatMap (fun m => [.acquire (.entry m), .mark m, .release (.entry m)])) = 3 * l.length := by
  induction l with
  | nil => rfl
  | cons n l ih =>
    rw [List.flatMap_cons, weightOf_append, ih, List.length_cons]
    simp only [weightOf_cons, weightOf_nil, Act.weight]; omega

theorem weight_perform (hL : NoNesting L) {i : Nat} {sh sh' : Shared} {a : Act} {more : List Act}
    (hp : perform L i sh a = some (sh', more)) : weightOf L more + 1 ≤ a.weight L := by
  cases a with
  | acquire l =>
    simp only [perform, Option.map_eq_some_iff, Prod.mk.injEq] at hp
    obtain ⟨_, _, _, rfl⟩ := hp
    exact Nat.le_refl _
  | release l =>
    simp only [perform, Option.map_eq_some_iff, Prod.mk.injEq] at hp
    obtain ⟨_, _, _, rfl⟩ := hp
    exact Nat.le_refl _
  | load n =>
    rw [perform] at hp
    by_cases hl : sh.loaded n = true
    · rw [if_pos hl] at hp; injection hp with hp; injection hp with _ hp; subst hp
      simp only [weightOf_nil, Act.weight]; split <;> omega
    · rw [if_neg hl] at hp
      cases hk : L.place n with
      | used k =>
        rw [hk] at hp
        injection hp with hp; injection hp with _ hp; subst hp
        simp [weightOf_cons, weightOf_nil, Act.weight, hk]
      | packed s =>
        rw [hk] at hp
        injection hp with hp; injection hp with _ hp; subst hp
        obtain ⟨k, hs⟩ := hL.stream n s hk
        simp only [weightOf_cons, weightOf_nil, Act.weight, hk, hs]; omega
  | loadLocked n =>
    rw [perform] at hp
    by_cases hl : sh.loaded n = true
    · rw [if_pos hl] at hp; injection hp with hp; injection hp with _ hp; subst hp
      simp [weightOf_cons, weightOf_nil, Act.weight]
    · rw [if_neg hl, lengthOf_nil hL] at hp; injection hp with hp; injection hp with _ hp; subst hp
      simp [weightOf_cons, weightOf_nil, Act.weight]
  | mark n => injection hp with hp; injection hp with _ hp; subst hp; exact Nat.le_refl _
  | unpackLocked s =>
    rw [perform] at hp
    by_cases hl : sh.unpacked s = true
    · rw [if_pos hl] at hp; injection hp with hp; injection hp with _ hp; subst hp
      simp only [weightOf_cons, weightOf_nil, Act.weight]; omega
    · rw [if_neg hl] at hp; injection hp with hp; injection hp with _ hp; subst hp
      simp only [weightOf_append, weight_loads (hL.heads s), weight_members, weightOf_cons, weightOf_nil, Act.weight]; omega
  | markUnpacked s => injection hp with hp; injection hp with _ hp; subst hp; exact Nat.le_refl _
  | read n =>
    rw [perform] at hp
    by_cases hl : sh.bodies n = true
    · rw [if_pos hl] at hp; injection hp with hp; injection hp with _ hp; subst hp
      simp [weightOf_nil, Act.weight]
    · rw [if_neg hl] at hp; injection hp with hp; injection hp with _ hp; subst hp
      simp [weightOf_cons, weightOf_nil, Act.weight]
  | readLocked n =>
    rw [perform] at hp
    by_cases hl : sh.bodies n = true
    · rw [if_pos hl] at hp; injection hp with hp; injection hp with _ hp; subst hp
      simp [weightOf_cons, weightOf_nil, Act.weight]
    · rw [if_neg hl, lengthOf_nil hL] at hp; injection hp with hp; injection hp with _ hp; subst hp
      simp [weightOf_cons, weightOf_nil, Act.weight]
  | markRead n => injection hp with hp; injection hp with _ hp; subst hp; exact Nat.le_refl _

/-- How many steps the threads take together at most. -/
def Threads.weight (L : Layout) (t : Threads) : Nat := (t.todo.map (weightOf L)).sum

theorem sum_set {f : List Act → Nat} {l : List (List Act)} {i : Nat} {m m' : List Act} (h : l[i]? = some m) :
    ((l.set i m').map f).sum + f m = (l.map f).sum + f m' := by
  induction l generalizing i with
  | nil => cases h
  | cons x l ih =>
    cases i with
    | zero =>
      injection h with h; subst h
      simp only [List.set_cons_zero, List.map_cons, List.sum_cons]; omega
    | succ i =>
      have := ih (i := i) h
      simp only [List.set_cons_succ, List.map_cons, List.sum_cons]; omega

theorem run_weight (hL : NoNesting L) : ∀ (sched : List Nat) {t t' : Threads}, t.run L sched = some t' →
    sched.length + t'.weight L ≤ t.weight L
  | [], t, t', h => by injection h with h; subst h; simp
  | i :: l, t, t', h => by
    rw [Threads.run, Option.bind_eq_some_iff] at h
    obtain ⟨u, h1, h2⟩ := h
    have := run_weight hL l h2
    obtain ⟨a, rest, sh, more, e1, e2, rfl⟩ := step_parts h1
    have w := weight_perform hL e2
    have e := sum_set (f := weightOf L) (m' := more ++ rest) e1
    rw [weightOf_append, weightOf_cons] at e
    unfold Threads.weight at this ⊢
    dsimp only at this
    rw [List.length_cons]; omega

/-! ### one thread -/

/-- A thread that has the locks `h`, the newest first, gives back what it takes. -/
def Balanced : List Mutex → List Act → Prop
  | h, [] => h = []
  | h, .acquire l :: r => Balanced (l :: h) r
  | h, .release l :: r => ∃ h', h = l :: h' ∧ Balanced h' r
  | h, .loadLocked n :: r => ∃ h', h = .entry n :: h' ∧ Balanced h' r
  | h, .unpackLocked _ :: r => ∃ h', h = .stm :: h' ∧ Balanced h' r
  | h, .readLocked n :: r => ∃ h', h = .body n :: h' ∧ Balanced h' r
  | h, .load _ :: r => Balanced h r
  | h, .mark _ :: r => Balanced h r
  | h, .markUnpacked _ :: r => Balanced h r
  | h, .read _ :: r => Balanced h r
  | h, .markRead _ :: r => Balanced h r

theorem Balanced.released {h : List Mutex} {a : Act} {r : List Act} (ho : Balanced h (a :: r)) (l : Mutex) (ha : a = .release l) :
    ∃ h', h = l :: h' := by
  subst ha
  obtain ⟨h', hh, _⟩ := ho
  exact ⟨h', hh⟩

theorem balanced_loads {h : List Mutex} (l : List Nat) {r : List Act} (hr : Balanced h r) : Balanced h (l.map .load ++ r) := by
  induction l with
  | nil => exact hr
  | cons n l ih => exact ih

theorem balanced_members {h : List Mutex} (l : List Nat) {r : List Act} (hr : Balanced h r) :
    Balanced h (l.flatMap (fun m => [.acquire (.entry m), .mark m, .release (.entry m)]) ++ r) := by
  induction l with
  | nil => exact hr
  | cons n l ih => exact ⟨h, rfl, ih⟩

theorem balanced_length {h : List Mutex} (n : Nat) {r : List Act} (hr : Balanced h r) : Balanced h (L.lengthOf n ++ r) := by
  unfold Layout.lengthOf
  cases L.place n with
  | packed s => exact hr
  | used k =>
    cases k with
    | none => exact hr
    | some k => exact hr

theorem balanced_perform {i : Nat} {sh sh' : Shared} {a : Act} {more r : List Act} {h : List Mutex}
    (hp : perform L i sh a = some (sh', more)) (ho : Balanced h (a :: r)) : Balanced (heldAfter h a) (more ++ r) := by
  cases a with
  | acquire l =>
    simp only [perform, Option.map_eq_some_iff, Prod.mk.injEq] at hp
    obtain ⟨_, _, _, rfl⟩ := hp
    exact ho
  | release l =>
    simp only [perform, Option.map_eq_some_iff, Prod.mk.injEq] at hp
    obtain ⟨_, _, _, rfl⟩ := hp
    obtain ⟨h', rfl, ho⟩ := ho
    exact ho
  | load n =>
    have ho : Balanced h r := ho
    rw [perform] at hp
    by_cases hl : sh.loaded n = true
    · rw [if_pos hl] at hp; injection hp with hp; injection hp with _ hp; subst hp; exact ho
    · rw [if_neg hl] at hp
      cases hk : L.place n with
      | used k =>
        rw [hk] at hp
        injection hp with hp; injection hp with _ hp; subst hp
        exact ⟨h, rfl, ho⟩
      | packed s =>
        rw [hk] at hp
        injection hp with hp; injection hp with _ hp; subst hp
        exact ⟨h, rfl, ho⟩
  | loadLocked n =>
    obtain ⟨h', rfl, ho⟩ := ho
    rw [perform] at hp
    by_cases hl : sh.loaded n = true
    · rw [if_pos hl] at hp; injection hp with hp; injection hp with _ hp; subst hp; exact ⟨h', rfl, ho⟩
    · rw [if_neg hl] at hp; injection hp with hp; injection hp with _ hp; subst hp
      rw [List.append_assoc, List.append_assoc]
      exact balanced_length n ⟨_, rfl, _, rfl, ho⟩
  | mark n => injection hp with hp; injection hp with _ hp; subst hp; exact ho
  | unpackLocked s =>
    obtain ⟨h', rfl, ho⟩ := ho
    rw [perform] at hp
    by_cases hl : sh.unpacked s = true
    · rw [if_pos hl] at hp; injection hp with hp; injection hp with _ hp; subst hp; exact ⟨h', rfl, ho⟩
    · rw [if_neg hl] at hp; injection hp with hp; injection hp with _ hp; subst hp
      rw [List.append_assoc, List.append_assoc, List.append_assoc]
      refine balanced_loads _ ?_
      exact balanced_members _ ⟨h', rfl, ho⟩
  | markUnpacked s => injection hp with hp; injection hp with _ hp; subst hp; exact ho
  | read n =>
    have ho : Balanced h r := ho
    rw [perform] at hp
    by_cases hl : sh.bodies n = true
    · rw [if_pos hl] at hp; injection hp with hp; injection hp with _ hp; subst hp; exact ho
    · rw [if_neg hl] at hp; injection hp with hp; injection hp with _ hp; subst hp
      exact ⟨h, rfl, ho⟩
  | readLocked n =>
    obtain ⟨h', rfl, ho⟩ := ho
    rw [perform] at hp
    by_cases hl : sh.bodies n = true
    · rw [if_pos hl] at hp; injection hp with hp; injection hp with _ hp; subst hp; exact ⟨h', rfl, ho⟩
    · rw [if_neg hl] at hp; injection hp with hp; injection hp with _ hp; subst hp
      rw [List.append_assoc, List.append_assoc]
      exact balanced_length n ⟨_, rfl, _, rfl, ho⟩
  | markRead n => injection hp with hp; injection hp with _ hp; subst hp; exact ho

/-- The invariant: who has which lock, and every thread gives back what it takes. -/
def Fair (t : Threads) (held : Nat → List Mutex) : Prop :=
  Owners t.sh held ∧ (∀ i l, t.todo[i]? = some l → Balanced (held i) l) ∧ ∀ i, t.todo[i]? = none → held i = []

theorem fair_perform {t : Threads} {i : Nat} {held : Nat → List Mutex} {a : Act} {rest more : List Act} {sh : Shared}
    (hs : Fair t held) (h1 : t.todo[i]? = some (a :: rest)) (h2 : perform L i t.sh a = some (sh, more)) :
    Fair ⟨sh, t.todo.set i (more ++ rest)⟩ (fun j => if j = i then heldAfter (held i) a else held j) := by
  obtain ⟨k1, k2, k3⟩ := hs
  have ho := k2 i _ h1
  have hlt : i < t.todo.length := (List.getElem?_eq_some_iff.mp h1).1
  refine ⟨owners_perform h2 k1 ho.released, fun j l hj => ?_, fun j hj => ?_⟩
  · dsimp only at hj ⊢
    by_cases hji : j = i
    · subst hji
      rw [List.getElem?_set_self hlt] at hj
      injection hj with hj; subst hj
      rw [if_pos rfl]; exact balanced_perform h2 ho
    · rw [if_neg hji]
      rw [List.getElem?_set_ne (Ne.symm hji)] at hj
      exact k2 j l hj
  · dsimp only at hj
    have hji : j ≠ i := by
      rintro rfl; rw [List.getElem?_set_self hlt] at hj; cases hj
    rw [List.getElem?_set_ne (Ne.symm hji)] at hj
    show (if j = i then _ else _) = _
    rw [if_neg hji]; exact k3 j hj

theorem balanced_calls (l : List Call) : Balanced [] (l.flatMap Call.acts) := by
  induction l with
  | nil => rfl
  | cons c l ih =>
    rw [List.flatMap_cons]
    cases c with
    | object n => exact ih
    | data n => exact ih
    | follow r n => exact ⟨[], rfl, ih⟩
    | compare a b => exact ⟨[.ref a], rfl, [], rfl, ih⟩

theorem fair_start (calls : List (List Call)) : Fair (Threads.start calls) (fun _ => []) := by
  refine ⟨fun l i => by simp, fun i l hi => ?_, fun _ _ => rfl⟩
  unfold Threads.start at hi
  rw [List.getElem?_map] at hi
  cases hl : calls[i]? with
  | none => rw [hl] at hi; cases hi
  | some m =>
    rw [hl] at hi
    injection hi with hi; subst hi
    exact balanced_calls m

theorem run_fair : ∀ (sched : List Nat) {t t' : Threads} {held : Nat → List Mutex}, Fair t held → t.run L sched = some t' →
    ∃ held', Fair t' held'
  | [], t, t', held, hs, h => by injection h with h; subst h; exact ⟨held, hs⟩
  | i :: l, t, t', held, hs, h => by
    rw [Threads.run, Option.bind_eq_some_iff] at h
    obtain ⟨u, h1, h2⟩ := h
    obtain ⟨a, rest, sh, more, e1, e2, rfl⟩ := step_parts h1
    exact run_fair l (fair_perform hs e1 e2) h2

theorem run_length : ∀ (sched : List Nat) {t t' : Threads}, t.run L sched = some t' → t'.todo.length = t.todo.length
  | [], t, t', h => by injection h with h; subst h; rfl
  | i :: l, t, t', h => by
    rw [Threads.run, Option.bind_eq_some_iff] at h
    obtain ⟨u, h1, h2⟩ := h
    obtain ⟨a, rest, sh, more, e1, e2, rfl⟩ := step_parts h1
    rw [run_length l h2, List.length_set]

/-- A thread that has returned has no lock. -/
theorem fair_free {t : Threads} {held : Nat → List Mutex} (hs : Fair t held) (hr : AllReturned t) (l : Mutex) : t.sh.owner l = none := by
  obtain ⟨k1, k2, k3⟩ := hs
  have hh : ∀ i, held i = [] := by
    intro i
    cases hi : t.todo[i]? with
    | none => exact k3 i hi
    | some m =>
      have := hr m (List.mem_of_getElem? hi)
      subst this
      exact k2 i _ hi
  have := k1 l
  cases ho : t.sh.owner l with
  | none => rfl
  | some x =>
    obtain ⟨j, k⟩ := x
    rw [ho] at this
    dsimp only at this
    rw [hh j] at this
    simp at this; omega

/-- One thread alone does not wait. -/
theorem alone_goes_on {t : Threads} {held : Nat → List Mutex} (hs : Fair t held) (h1 : t.todo.length = 1) (hstep : ∀ i, t.step L i = none) :
    AllReturned t := by
  obtain ⟨k1, k2, k3⟩ := hs
  intro m hm
  obtain ⟨i, hi⟩ := List.getElem?_of_mem hm
  have hi0 : i = 0 := by have := (List.getElem?_eq_some_iff.mp hi).1; omega
  subst hi0
  cases m with
  | nil => rfl
  | cons a rest =>
    exfalso
    have := hstep 0
    unfold Threads.step at this
    rw [hi] at this
    simp only [Option.map_eq_none_iff] at this
    obtain ⟨l, j, _, hj, hl⟩ := perform_waits k1 (k2 0 _ hi).released this
    have : t.todo[j]? = none := List.getElem?_eq_none (by omega)
    rw [k3 j this] at hl
    cases hl
end

end VPdf
