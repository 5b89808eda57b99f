import Verif.Lemmas.Locks
/-
  Objects loaded by several threads are stored, and stored once.
-/
namespace VPdf
open Spec

section
variable {L : Layout}

/-! ### what one action changes -/

theorem perform_loaded {i : Nat} {sh sh' : Shared} {a : Act} {more : List Act} (hp : perform L i sh a = some (sh', more)) :
    (∀ n, sh'.loaded n = true ↔ sh.loaded n = true ∨ a = .mark n) ∧ (∀ s, sh'.unpacked s = true ↔ sh.unpacked s = true ∨ a = .markUnpacked s) ∧
    (∀ n, sh'.bodies n = true ↔ sh.bodies n = true ∨ a = .markRead n) ∧ (∀ n, sh'.log.count n = sh.log.count n + if a = .mark n then 1 else 0) := by
  have same : ∀ {a : Act}, sh'.loaded = sh.loaded → sh'.unpacked = sh.unpacked → sh'.bodies = sh.bodies → sh'.log = sh.log →
      (∀ n, a ≠ .mark n) → (∀ n, a ≠ .markUnpacked n) → (∀ n, a ≠ .markRead n) →
      (∀ n, sh'.loaded n = true ↔ sh.loaded n = true ∨ a = .mark n) ∧ (∀ s, sh'.unpacked s = true ↔ sh.unpacked s = true ∨ a = .markUnpacked s) ∧
      (∀ n, sh'.bodies n = true ↔ sh.bodies n = true ∨ a = .markRead n) ∧ (∀ n, sh'.log.count n = sh.log.count n + if a = .mark n then 1 else 0) := by
    intro a e1 e2 e3 e4 h1 h2 h3
    refine ⟨fun n => ?_, fun n => ?_, fun n => ?_, fun n => ?_⟩
    · rw [e1]; simp [h1 n]
    · rw [e2]; simp [h2 n]
    · rw [e3]; simp [h3 n]
    · rw [e4, if_neg (h1 n)]; rfl
  cases a with
  | acquire l =>
    simp only [perform, Option.map_eq_some_iff, Prod.mk.injEq] at hp
    obtain ⟨z, hz, rfl, rfl⟩ := hp
    unfold Shared.lock at hz
    cases hol : sh.owner l with
    | none =>
      rw [hol] at hz
      injection hz with hz; subst hz
      exact same rfl rfl rfl rfl (by simp) (by simp) (by simp)
    | some x =>
      obtain ⟨j, k⟩ := x
      rw [hol] at hz
      dsimp only at hz
      by_cases hj : j = i
      · rw [if_pos hj] at hz
        injection hz with hz; subst hz
        exact same rfl rfl rfl rfl (by simp) (by simp) (by simp)
      · rw [if_neg hj] at hz; cases hz
  | release l =>
    simp only [perform, Option.map_eq_some_iff, Prod.mk.injEq] at hp
    obtain ⟨z, hz, rfl, rfl⟩ := hp
    unfold Shared.unlock at hz
    cases hol : sh.owner l with
    | none => rw [hol] at hz; cases hz
    | some x =>
      obtain ⟨j, k⟩ := x
      rw [hol] at hz
      cases k with
      | zero => cases hz
      | succ k =>
        dsimp only at hz
        by_cases hj : j = i
        · rw [if_pos hj] at hz
          injection hz with hz; subst hz
          exact same rfl rfl rfl rfl (by simp) (by simp) (by simp)
        · rw [if_neg hj] at hz; cases hz
  | load n =>
    have : sh' = sh := by
      rw [perform] at hp
      split at hp
      · injection hp with hp; injection hp with hp _; exact hp.symm
      · split at hp <;> (injection hp with hp; injection hp with hp _; exact hp.symm)
    subst this
    exact same rfl rfl rfl rfl (by simp) (by simp) (by simp)
  | loadLocked n =>
    have : sh' = sh := by
      rw [perform] at hp
      split at hp <;> (injection hp with hp; injection hp with hp _; exact hp.symm)
    subst this
    exact same rfl rfl rfl rfl (by simp) (by simp) (by simp)
  | unpackLocked n =>
    have : sh' = sh := by
      rw [perform] at hp
      split at hp <;> (injection hp with hp; injection hp with hp _; exact hp.symm)
    subst this
    exact same rfl rfl rfl rfl (by simp) (by simp) (by simp)
  | read n =>
    have : sh' = sh := by
      rw [perform] at hp
      split at hp <;> (injection hp with hp; injection hp with hp _; exact hp.symm)
    subst this
    exact same rfl rfl rfl rfl (by simp) (by simp) (by simp)
  | readLocked n =>
    have : sh' = sh := by
      rw [perform] at hp
      split at hp <;> (injection hp with hp; injection hp with hp _; exact hp.symm)
    subst this
    exact same rfl rfl rfl rfl (by simp) (by simp) (by simp)
  | mark n =>
    injection hp with hp; injection hp with hp _; subst hp
    refine ⟨fun m => ?_, fun m => by simp, fun m => by simp, fun m => ?_⟩
    · dsimp only
      by_cases h : m = n
      · simp [h]
      · rw [if_neg h]; simp [Ne.symm h]
    · dsimp only
      rw [List.count_cons]
      by_cases h : n = m <;> simp [h]
  | markUnpacked n =>
    injection hp with hp; injection hp with hp _; subst hp
    refine ⟨fun m => by simp, fun m => ?_, fun m => by simp, fun m => by simp⟩
    dsimp only
    by_cases h : m = n
    · simp [h]
    · rw [if_neg h]; simp [Ne.symm h]
  | markRead n =>
    injection hp with hp; injection hp with hp _; subst hp
    refine ⟨fun m => by simp, fun m => by simp, fun m => ?_, fun m => by simp⟩
    dsimp only
    by_cases h : m = n
    · simp [h]
    · rw [if_neg h]; simp [Ne.symm h]

/-! ### what has been asked for is there -/

/-- The members of an object stream that is about to be marked as unpacked are stored before. -/
def Filling (L : Layout) (sh : Shared) (l : List Act) : Prop :=
  ∀ p q s, l = p ++ .markUnpacked s :: q → ∀ m ∈ L.members s, sh.loaded m = true ∨ .mark m ∈ p

/-- The object `n` is stored or will be when the actions are done. -/
def Will (L : Layout) (sh : Shared) (n : Nat) (l : List Act) : Prop :=
  sh.loaded n = true ∨ .load n ∈ l ∨ .loadLocked n ∈ l ∨ .mark n ∈ l ∨ ∃ s, L.place n = .packed s ∧ .unpackLocked s ∈ l

/-- The data of the stream `n` are stored or will be when the actions are done. -/
def WillRead (sh : Shared) (n : Nat) (l : List Act) : Prop := sh.bodies n = true ∨ .read n ∈ l ∨ .readLocked n ∈ l ∨ .markRead n ∈ l

theorem unpack_split {s : Nat} {heads members : List Nat} {p q : List Act} {s' : Nat} {r : List Act}
    (h : (heads.map Act.load ++ [Act.read s] ++ members.flatMap (fun m => [.acquire (.entry m), .mark m, .release (.entry m)]) ++
      [Act.markUnpacked s, .release .stm]) ++ r = p ++ .markUnpacked s' :: q) :
    (s' = s ∧ ∀ m ∈ members, .mark m ∈ p) ∨ ∃ p', r = p' ++ .markUnpacked s' :: q ∧ ∀ x ∈ p', x ∈ p := by
  have hno : ∀ s'', Act.markUnpacked s'' ∉ heads.map Act.load ++ [Act.read s] ++
      members.flatMap (fun m => [.acquire (.entry m), .mark m, .release (.entry m)]) := by
    intro s''; simp
  generalize hA : heads.map Act.load ++ [Act.read s] ++
    members.flatMap (fun m => [Act.acquire (.entry m), .mark m, .release (.entry m)]) = A at h hno
  have hmem : ∀ m ∈ members, Act.mark m ∈ A := by
    intro m hm; rw [← hA]; simp; exact hm
  rw [List.append_assoc, List.cons_append, List.cons_append, List.nil_append] at h
  rcases List.append_eq_append_iff.mp h with ⟨as, h1, h2⟩ | ⟨bs, h1, h2⟩
  · cases as with
    | nil =>
      left
      injection h2 with h2 _
      injection h2 with h2
      refine ⟨h2.symm, fun m hm => ?_⟩
      rw [h1]; simp [hmem m hm]
    | cons x as =>
      injection h2 with h2 h3
      cases as with
      | nil => injection h3 with h3; cases h3
      | cons y as =>
        injection h3 with _ h3
        exact Or.inr ⟨as, h3, fun z hz => by rw [h1]; simp [hz]⟩
  · cases bs with
    | nil =>
      left
      injection h2 with h2 _
      injection h2 with h2
      refine ⟨h2, fun m hm => ?_⟩
      rw [List.append_nil] at h1
      rw [← h1]; exact hmem m hm
    | cons x bs =>
      exfalso
      injection h2 with h2 _
      subst h2
      exact hno s' (by rw [h1]; simp)

theorem perform_more {i : Nat} {sh sh' : Shared} {a : Act} {more : List Act} (hp : perform L i sh a = some (sh', more)) :
    (∀ s, .markUnpacked s ∈ more → a = .unpackLocked s ∧ sh.unpacked s = false) ∧
    (∀ n, .mark n ∈ more → (a = .loadLocked n ∧ sh.loaded n = false) ∨ ∃ s, a = .unpackLocked s ∧ sh.unpacked s = false ∧ n ∈ L.members s) ∧
    (∀ n, .loadLocked n ∈ more → ∃ k, L.place n = .used k) := by
  have nolen : ∀ n x, x ∈ L.lengthOf n → ∃ k, x = .load k := by
    intro n x hx
    unfold Layout.lengthOf at hx
    split at hx
    · simp at hx; exact ⟨_, hx⟩
    · cases hx
  cases a with
  | acquire l =>
    simp only [perform, Option.map_eq_some_iff, Prod.mk.injEq] at hp
    obtain ⟨_, _, _, rfl⟩ := hp
    simp
  | release l =>
    simp only [perform, Option.map_eq_some_iff, Prod.mk.injEq] at hp
    obtain ⟨_, _, _, rfl⟩ := hp
    simp
  | load n =>
    rw [perform] at hp
    by_cases hl : sh.loaded n = true
    · rw [if_pos hl] at hp; injection hp with hp; injection hp with _ hp; subst hp; simp
    · rw [if_neg hl] at hp
      cases hk : L.place n with
      | used k =>
        rw [hk] at hp
        injection hp with hp; injection hp with _ hp; subst hp
        simp only [List.mem_cons, List.not_mem_nil, or_false]
        simp
        exact ⟨k, hk⟩
      | packed s =>
        rw [hk] at hp
        injection hp with hp; injection hp with _ hp; subst hp
        simp
  | loadLocked n =>
    rw [perform] at hp
    by_cases hl : sh.loaded n = true
    · rw [if_pos hl] at hp; injection hp with hp; injection hp with _ hp; subst hp; simp
    · rw [if_neg hl] at hp; injection hp with hp; injection hp with _ hp; subst hp
      refine ⟨fun s hs => ?_, fun m hm => ?_, fun m hm => ?_⟩
      · exfalso; simp at hs; obtain ⟨k, hk⟩ := nolen _ _ hs; cases hk
      · simp at hm
        rcases hm with hm | hm
        · obtain ⟨k, hk⟩ := nolen _ _ hm; cases hk
        · subst hm; exact Or.inl ⟨rfl, by simpa using hl⟩
      · exfalso; simp at hm; obtain ⟨k, hk⟩ := nolen _ _ hm; cases hk
  | mark n => injection hp with hp; injection hp with _ hp; subst hp; simp
  | unpackLocked s =>
    rw [perform] at hp
    by_cases hl : sh.unpacked s = true
    · rw [if_pos hl] at hp; injection hp with hp; injection hp with _ hp; subst hp; simp
    · rw [if_neg hl] at hp; injection hp with hp; injection hp with _ hp; subst hp
      refine ⟨fun s' hs => ?_, fun m hm => ?_, fun m hm => ?_⟩
      · simp at hs; subst hs; exact ⟨rfl, by simpa using hl⟩
      · simp at hm; exact Or.inr ⟨s, rfl, by simpa using hl, hm⟩
      · exfalso; simp at hm
  | markUnpacked s => injection hp with hp; injection hp with _ hp; subst hp; simp
  | read n =>
    rw [perform] at hp
    split at hp <;> (injection hp with hp; injection hp with _ hp; subst hp; simp)
  | readLocked n =>
    rw [perform] at hp
    split at hp
    · injection hp with hp; injection hp with _ hp; subst hp; simp
    · injection hp with hp; injection hp with _ hp; subst hp
      refine ⟨fun s hs => ?_, fun m hm => ?_, fun m hm => ?_⟩
      · exfalso; simp at hs; obtain ⟨k, hk⟩ := nolen _ _ hs; cases hk
      · exfalso; simp at hm; obtain ⟨k, hk⟩ := nolen _ _ hm; cases hk
      · exfalso; simp at hm; obtain ⟨k, hk⟩ := nolen _ _ hm; cases hk
  | markRead n => injection hp with hp; injection hp with _ hp; subst hp; simp

theorem filling_perform {i : Nat} {sh sh' : Shared} {a : Act} {more rest : List Act} (hp : perform L i sh a = some (sh', more))
    (hf : Filling L sh (a :: rest)) : Filling L sh' (more ++ rest) := by
  have hl := (perform_loaded hp).1
  have old : ∀ p' q s, rest = p' ++ .markUnpacked s :: q → ∀ m ∈ L.members s, sh'.loaded m = true ∨ .mark m ∈ p' := by
    intro p' q s h m hm
    rcases hf (a :: p') q s (by rw [h]; rfl) m hm with h1 | h1
    · exact Or.inl ((hl m).mpr (Or.inl h1))
    · rcases List.mem_cons.mp h1 with h1 | h1
      · exact Or.inl ((hl m).mpr (Or.inr h1.symm))
      · exact Or.inr h1
  intro p q s h m hm
  by_cases hin : Act.markUnpacked s ∈ more
  · obtain ⟨rfl, hu⟩ := (perform_more hp).1 s hin
    rw [perform, if_neg (by rw [hu]; simp)] at hp
    injection hp with hp; injection hp with _ hp; subst hp
    rcases unpack_split h with ⟨_, h1⟩ | ⟨p', h1, h2⟩
    · exact Or.inr (h1 m hm)
    · exact (old p' q s h1 m hm).imp id (h2 _)
  · rcases List.append_eq_append_iff.mp h with ⟨as, h1, h2⟩ | ⟨bs, h1, h2⟩
    · exact (old as q s h2 m hm).imp id fun h => by rw [h1]; simp [h]
    · cases bs with
      | nil => exact (old [] q s (by simpa using h2.symm) m hm).imp id fun h => nomatch h
      | cons x bs =>
        injection h2 with h2 _
        subst h2
        exact absurd (by rw [h1]; simp) hin

theorem will_perform {i : Nat} {sh sh' : Shared} {a : Act} {more rest : List Act} {n : Nat} (hp : perform L i sh a = some (sh', more))
    (hm : ∀ s, L.place n = .packed s → n ∈ L.members s) (hu : ∀ s, sh.unpacked s = true → ∀ m ∈ L.members s, sh.loaded m = true)
    (hw : Will L sh n (a :: rest)) : Will L sh' n (more ++ rest) := by
  have hl := (perform_loaded hp).1
  rcases hw with h | h | h | h | ⟨s, hs, h⟩
  · exact Or.inl ((hl n).mpr (Or.inl h))
  · rcases List.mem_cons.mp h with h | h
    · subst h
      rw [perform] at hp
      by_cases hln : sh.loaded n = true
      · exact Or.inl ((hl n).mpr (Or.inl hln))
      · rw [if_neg hln] at hp
        cases hk : L.place n with
        | used k =>
          rw [hk] at hp
          injection hp with hp; injection hp with _ hp; subst hp
          right; right; left; simp
        | packed s =>
          rw [hk] at hp
          injection hp with hp; injection hp with _ hp; subst hp
          right; right; right; right; exact ⟨s, hk, by simp⟩
    · right; left; simp [h]
  · rcases List.mem_cons.mp h with h | h
    · subst h
      rw [perform] at hp
      by_cases hln : sh.loaded n = true
      · exact Or.inl ((hl n).mpr (Or.inl hln))
      · rw [if_neg hln] at hp
        injection hp with hp; injection hp with _ hp; subst hp
        right; right; right; left; simp
    · right; right; left; simp [h]
  · rcases List.mem_cons.mp h with h | h
    · exact Or.inl ((hl n).mpr (Or.inr h.symm))
    · right; right; right; left; simp [h]
  · rcases List.mem_cons.mp h with h | h
    · subst h
      rw [perform] at hp
      by_cases hln : sh.unpacked s = true
      · exact Or.inl ((hl n).mpr (Or.inl (hu s hln n (hm s hs))))
      · rw [if_neg hln] at hp
        injection hp with hp; injection hp with _ hp; subst hp
        right; right; right; left; simp [hm s hs]
    · right; right; right; right; exact ⟨s, hs, by simp [h]⟩

theorem willRead_perform {i : Nat} {sh sh' : Shared} {a : Act} {more rest : List Act} {n : Nat} (hp : perform L i sh a = some (sh', more))
    (hw : WillRead sh n (a :: rest)) : WillRead sh' n (more ++ rest) := by
  have hl := (perform_loaded hp).2.2.1
  rcases hw with h | h | h | h
  · exact Or.inl ((hl n).mpr (Or.inl h))
  · rcases List.mem_cons.mp h with h | h
    · subst h
      rw [perform] at hp
      by_cases hln : sh.bodies n = true
      · exact Or.inl ((hl n).mpr (Or.inl hln))
      · rw [if_neg hln] at hp
        injection hp with hp; injection hp with _ hp; subst hp
        right; right; left; simp
    · right; left; simp [h]
  · rcases List.mem_cons.mp h with h | h
    · subst h
      rw [perform] at hp
      by_cases hln : sh.bodies n = true
      · exact Or.inl ((hl n).mpr (Or.inl hln))
      · rw [if_neg hln] at hp
        injection hp with hp; injection hp with _ hp; subst hp
        right; right; right; simp
    · right; right; left; simp [h]
  · rcases List.mem_cons.mp h with h | h
    · exact Or.inl ((hl n).mpr (Or.inr h.symm))
    · right; right; right; simp [h]

/-- The invariant for the objects that have been asked for by the threads. -/
structure Promise (L : Layout) (calls : List (List Call)) (t : Threads) : Prop where
  fill : ∀ l ∈ t.todo, Filling L t.sh l
  full : ∀ s, t.sh.unpacked s = true → ∀ m ∈ L.members s, t.sh.loaded m = true
  will : ∀ (i : Nat) (cs : List Call) (l : List Act), calls[i]? = some cs → t.todo[i]? = some l → ∀ c ∈ cs, ∀ n, Asks c n → Will L t.sh n l
  read : ∀ (i : Nat) (cs : List Call) (l : List Act), calls[i]? = some cs → t.todo[i]? = some l → ∀ n, .data n ∈ cs → WillRead t.sh n l

theorem calls_acts {cs : List Call} {c : Call} (hc : c ∈ cs) {a : Act} (ha : a ∈ c.acts) : a ∈ cs.flatMap Call.acts :=
  List.mem_flatMap.mpr ⟨c, hc, ha⟩

theorem calls_plain {cs : List Call} {a : Act} (ha : a ∈ cs.flatMap Call.acts) :
    (∀ n, a ≠ .mark n) ∧ (∀ n, a ≠ .markUnpacked n) ∧ (∀ n, a ≠ .loadLocked n) ∧ (∀ n, a ≠ .unpackLocked n) := by
  obtain ⟨c, _, ha⟩ := List.mem_flatMap.mp ha
  cases c <;> simp [Call.acts] at ha <;> (try rcases ha with rfl | rfl | rfl | rfl) <;> (try rcases ha with rfl | rfl | rfl) <;>
    (try rcases ha with rfl | rfl) <;> (try subst ha) <;> simp

theorem start_todo {calls : List (List Call)} {i : Nat} {l : List Act} (h : (Threads.start calls).todo[i]? = some l) :
    ∃ cs, calls[i]? = some cs ∧ l = cs.flatMap Call.acts := by
  unfold Threads.start at h
  rw [List.getElem?_map] at h
  cases hl : calls[i]? with
  | none => rw [hl] at h; cases h
  | some m => rw [hl] at h; injection h with h; exact ⟨m, rfl, h.symm⟩

theorem promise_start (L : Layout) (calls : List (List Call)) : Promise L calls (Threads.start calls) := by
  refine ⟨fun l hl => ?_, fun s hs => ?_, fun i cs l hc hl c hcs n ha => ?_, fun i cs l hc hl n hn => ?_⟩
  · obtain ⟨i, hi⟩ := List.getElem?_of_mem hl
    obtain ⟨cs, _, rfl⟩ := start_todo hi
    intro p q s h
    exact absurd rfl ((calls_plain (cs := cs) (a := .markUnpacked s) (by rw [h]; simp)).2.1 s)
  · cases hs
  · obtain ⟨cs', hc', rfl⟩ := start_todo hl
    rw [hc] at hc'; injection hc' with hc'; subst hc'
    right; left
    refine calls_acts hcs ?_
    cases c with
    | compare a b => cases ha
    | object m => have : m = n := ha; subst this; simp [Call.acts]
    | data m => have : m = n := ha; subst this; simp [Call.acts]
    | follow r m => have : m = n := ha; subst this; simp [Call.acts]
  · obtain ⟨cs', hc', rfl⟩ := start_todo hl
    rw [hc] at hc'; injection hc' with hc'; subst hc'
    right; left
    exact calls_acts hn (by simp [Call.acts])

theorem set_cases {t : Threads} {i j : Nat} {a : Act} {rest new l : List Act} (h1 : t.todo[i]? = some (a :: rest)) (h : (t.todo.set i new)[j]? = some l) :
    (j = i ∧ l = new) ∨ (j ≠ i ∧ t.todo[j]? = some l) := by
  have hlt : i < t.todo.length := (List.getElem?_eq_some_iff.mp h1).1
  by_cases hji : j = i
  · subst hji
    rw [List.getElem?_set_self hlt] at h
    injection h with h
    exact Or.inl ⟨rfl, h.symm⟩
  · rw [List.getElem?_set_ne (Ne.symm hji)] at h
    exact Or.inr ⟨hji, h⟩

theorem promise_perform {calls : List (List Call)} {t : Threads} {i : Nat} {a : Act} {rest more : List Act} {sh : Shared}
    (hm : ∀ n s, L.place n = .packed s → n ∈ L.members s) (hs : Promise L calls t)
    (h1 : t.todo[i]? = some (a :: rest)) (h2 : perform L i t.sh a = some (sh, more)) :
    Promise L calls ⟨sh, t.todo.set i (more ++ rest)⟩ := by
  obtain ⟨e1, e2, e3, _⟩ := perform_loaded h2
  have ha := List.mem_of_getElem? h1
  refine ⟨fun l hl => ?_, fun s hu m hmem => ?_, fun j cs l hc hl c hcs n hask => ?_, fun j cs l hc hl n hn => ?_⟩
  · obtain ⟨j, hj⟩ := List.getElem?_of_mem hl
    rcases set_cases h1 hj with ⟨_, rfl⟩ | ⟨_, hj⟩
    · exact filling_perform h2 (hs.fill _ ha)
    · intro p q s h m hmem
      exact (hs.fill l (List.mem_of_getElem? hj) p q s h m hmem).imp (fun h => (e1 m).mpr (Or.inl h)) id
  · dsimp only at hu ⊢
    rcases (e2 s).mp hu with hu | hu
    · exact (e1 m).mpr (Or.inl (hs.full s hu m hmem))
    · subst hu
      rcases hs.fill _ ha [] rest s rfl m hmem with h | h
      · exact (e1 m).mpr (Or.inl h)
      · cases h
  · rcases set_cases h1 hl with ⟨rfl, rfl⟩ | ⟨_, hj⟩
    · exact will_perform h2 (hm n) hs.full (hs.will j cs _ hc h1 c hcs n hask)
    · exact (hs.will j cs l hc hj c hcs n hask).imp (fun h => (e1 n).mpr (Or.inl h)) id
  · rcases set_cases h1 hl with ⟨rfl, rfl⟩ | ⟨_, hj⟩
    · exact willRead_perform h2 (hs.read j cs _ hc h1 n hn)
    · exact (hs.read j cs l hc hj n hn).imp (fun h => (e3 n).mpr (Or.inl h)) id

theorem run_promise {calls : List (List Call)} (hm : ∀ n s, L.place n = .packed s → n ∈ L.members s) : ∀ (sched : List Nat) {t t' : Threads},
    Promise L calls t → t.run L sched = some t' → Promise L calls t'
  | [], t, t', hs, h => by injection h with h; subst h; exact hs
  | i :: l, t, t', hs, h => by
    rw [Threads.run, Option.bind_eq_some_iff] at h
    obtain ⟨u, h1, h2⟩ := h
    obtain ⟨a, rest, sh, more, e1, e2, rfl⟩ := step_parts h1
    exact run_promise hm l (promise_perform hm hs e1 e2) h2

theorem promise_kept {calls : List (List Call)} {t : Threads} (hs : Promise L calls t) {i : Nat} {cs : List Call} (hc : calls[i]? = some cs)
    (hr : t.todo[i]? = some []) : (∀ c ∈ cs, ∀ n, Asks c n → t.sh.loaded n = true) ∧ ∀ n, .data n ∈ cs → t.sh.bodies n = true := by
  refine ⟨fun c hcs n ha => ?_, fun n hn => ?_⟩
  · rcases hs.will i cs [] hc hr c hcs n ha with h | h | h | h | ⟨s, _, h⟩
    · exact h
    all_goals cases h
  · rcases hs.read i cs [] hc hr n hn with h | h | h | h
    · exact h
    all_goals cases h

/-! ### objects at offsets are stored once -/

/-- Where a thread is that stores the object `n`: it waits for the input, or has it. -/
def Storing (n : Nat) (l : List Act) : Prop :=
  ∃ r, .mark n ∉ r ∧ (l = .acquire .input :: .mark n :: .release .input :: .release (.entry n) :: r ∨
    l = .mark n :: .release .input :: .release (.entry n) :: r)

/-- The invariant for an object at an offset. -/
structure OnceUsed (n : Nat) (t : Threads) (held : Nat → List Mutex) : Prop where
  fair : Fair t held
  count : t.sh.log.count n = if t.sh.loaded n then 1 else 0
  place : ∀ (i : Nat) (l : List Act), t.todo[i]? = some l → .mark n ∉ l ∨ (t.sh.loaded n = false ∧ .entry n ∈ held i ∧ Storing n l)

theorem onceUsed_perform {n : Nat} (hlen : L.lengthOf n = []) (hmem : ∀ s, n ∉ L.members s) {t : Threads} {i : Nat} {held : Nat → List Mutex}
    {a : Act} {rest more : List Act} {sh : Shared} (hs : OnceUsed n t held) (h1 : t.todo[i]? = some (a :: rest))
    (h2 : perform L i t.sh a = some (sh, more)) :
    OnceUsed n ⟨sh, t.todo.set i (more ++ rest)⟩ (fun j => if j = i then heldAfter (held i) a else held j) := by
  obtain ⟨e1, _, _, e4⟩ := perform_loaded h2
  refine ⟨fair_perform hs.fair h1 h2, ?_, ?_⟩
  · show sh.log.count n = _
    rw [e4 n, hs.count]
    by_cases ha : a = .mark n
    · rcases hs.place i _ h1 with h | ⟨h, _⟩
      · exact absurd (by rw [ha]; simp) h
      · rw [if_pos ha, h, if_pos ((e1 n).mpr (Or.inr ha))]; rfl
    · rw [if_neg ha]
      have : sh.loaded n = t.sh.loaded n := by
        rw [Bool.eq_iff_iff, e1 n]; simp [ha]
      dsimp only; rw [this]; rfl
  · intro j l hj
    show _ ∨ (sh.loaded n = false ∧ _)
    rcases set_cases h1 hj with ⟨rfl, rfl⟩ | ⟨hji, hj⟩
    · rw [if_pos rfl]
      rcases hs.place j _ h1 with h | ⟨hl, he, r, hr, hst | hst⟩
      · have hrest : Act.mark n ∉ rest := fun hx => h (by simp [hx])
        by_cases hin : Act.mark n ∈ more
        · right
          rcases (perform_more h2).2.1 n hin with ⟨rfl, hl⟩ | ⟨s, _, _, hx⟩
          · obtain ⟨h', hh, _⟩ := hs.fair.2.1 j _ h1
            have hl' : sh.loaded n = false := by
              rw [Bool.eq_false_iff]; intro hc
              rcases (e1 n).mp hc with hc | hc
              · rw [hl] at hc; cases hc
              · cases hc
            refine ⟨hl', by show Mutex.entry n ∈ held j; rw [hh]; simp, rest, hrest, Or.inl ?_⟩
            rw [perform, if_neg (by rw [hl]; simp), hlen] at h2
            injection h2 with h2; injection h2 with _ h2; subst h2
            rfl
          · exact absurd hx (hmem s)
        · left; intro hx
          rcases List.mem_append.mp hx with hx | hx
          · exact hin hx
          · exact hrest hx
      · right
        injection hst with ha hrest
        subst ha
        simp only [perform, Option.map_eq_some_iff, Prod.mk.injEq] at h2
        obtain ⟨_, _, _, rfl⟩ := h2
        refine ⟨?_, by show Mutex.entry n ∈ _ :: held j; simp [he], r, hr, Or.inr (by rw [hrest]; rfl)⟩
        rw [Bool.eq_false_iff]; intro hc
        rcases (e1 n).mp hc with hc | hc
        · rw [hl] at hc; cases hc
        · cases hc
      · left
        injection hst with ha hrest
        subst ha
        injection h2 with h2; injection h2 with _ h2; subst h2
        rw [hrest]; simp [hr]
    · rw [if_neg hji]
      rcases hs.place j _ hj with h | ⟨hl, he, hst⟩
      · exact Or.inl h
      · refine Or.inr ⟨?_, he, hst⟩
        rw [Bool.eq_false_iff]; intro hc
        rcases (e1 n).mp hc with hc | hc
        · rw [hl] at hc; cases hc
        · rcases hs.place i _ h1 with h | ⟨_, he', _⟩
          · exact h (by rw [hc]; simp)
          · exact hji (hs.fair.1.unique he he')

theorem onceUsed_start (n : Nat) (calls : List (List Call)) : OnceUsed n (Threads.start calls) (fun _ => []) := by
  refine ⟨fair_start calls, rfl, fun i l hi => Or.inl fun hx => ?_⟩
  obtain ⟨cs, _, rfl⟩ := start_todo hi
  exact (calls_plain hx).1 n rfl

theorem run_onceUsed {n : Nat} (hlen : L.lengthOf n = []) (hmem : ∀ s, n ∉ L.members s) : ∀ (sched : List Nat) {t t' : Threads}
    {held : Nat → List Mutex}, OnceUsed n t held → t.run L sched = some t' → ∃ held', OnceUsed n t' held'
  | [], t, t', held, hs, h => by injection h with h; subst h; exact ⟨held, hs⟩
  | i :: l, t, t', held, hs, h => by
    rw [Threads.run, Option.bind_eq_some_iff] at h
    obtain ⟨u, h1, h2⟩ := h
    obtain ⟨a, rest, sh, more, e1, e2, rfl⟩ := step_parts h1
    exact run_onceUsed hlen hmem l (onceUsed_perform hlen hmem hs e1 e2) h2

/-! ### objects in object streams are stored once -/

/-- Actions of a thread that is about to unpack an object stream, before it stores the flag. -/
def Inner (L : Layout) : Act → Prop
  | .acquire l => l ≠ .stm
  | .release l => l ≠ .stm
  | .load k => ∃ j, L.place k = .used j
  | .loadLocked k => ∃ j, L.place k = .used j
  | .unpackLocked _ => False
  | .markUnpacked _ => False
  | _ => True

theorem inner_perform (hL : NoNesting L) {i : Nat} {sh sh' : Shared} {a : Act} {more : List Act} (hp : perform L i sh a = some (sh', more))
    (ha : Inner L a) : ∀ x ∈ more, Inner L x := by
  cases a with
  | acquire l =>
    simp only [perform, Option.map_eq_some_iff, Prod.mk.injEq] at hp
    obtain ⟨_, _, _, rfl⟩ := hp
    simp
  | release l =>
    simp only [perform, Option.map_eq_some_iff, Prod.mk.injEq] at hp
    obtain ⟨_, _, _, rfl⟩ := hp
    simp
  | load n =>
    obtain ⟨j, hj⟩ := ha
    rw [perform, hj] at hp
    split at hp
    · injection hp with hp; injection hp with _ hp; subst hp; simp
    · injection hp with hp; injection hp with _ hp; subst hp
      simp [Inner, hj]
  | loadLocked n =>
    rw [perform, lengthOf_nil hL] at hp
    split at hp
    · injection hp with hp; injection hp with _ hp; subst hp; simp [Inner]
    · injection hp with hp; injection hp with _ hp; subst hp; simp [Inner]
  | mark n => injection hp with hp; injection hp with _ hp; subst hp; simp
  | unpackLocked s => exact ha.elim
  | markUnpacked s => exact ha.elim
  | read n =>
    rw [perform] at hp
    split at hp
    · injection hp with hp; injection hp with _ hp; subst hp; simp
    · injection hp with hp; injection hp with _ hp; subst hp; simp [Inner]
  | readLocked n =>
    rw [perform, lengthOf_nil hL] at hp
    split at hp
    · injection hp with hp; injection hp with _ hp; subst hp; simp [Inner]
    · injection hp with hp; injection hp with _ hp; subst hp; simp [Inner]
  | markRead n => injection hp with hp; injection hp with _ hp; subst hp; simp

/-- A thread that does not unpack the object stream `s`. -/
def Outside (n s : Nat) (l : List Act) : Prop := .mark n ∉ l ∧ .markUnpacked s ∉ l ∧ .loadLocked n ∉ l

/-- A thread that unpacks the object stream `s`; the object `n` is stored once by now or when the flag is stored. -/
def Unpacking (L : Layout) (sh : Shared) (n s : Nat) (l : List Act) : Prop :=
  ∃ p r, l = p ++ .markUnpacked s :: .release .stm :: r ∧ (∀ a ∈ p, Inner L a) ∧ p.count (.mark n) + sh.log.count n = 1 ∧ Outside n s r

/-- The invariant for an object in an object stream. -/
structure OncePacked (L : Layout) (n s : Nat) (t : Threads) (held : Nat → List Mutex) : Prop where
  fair : Fair t held
  done : t.sh.unpacked s = true → t.sh.log.count n = 1
  place : ∀ (i : Nat) (l : List Act), t.todo[i]? = some l →
    Outside n s l ∨ (t.sh.unpacked s = false ∧ Unpacking L t.sh n s l)
  none : t.sh.unpacked s = false → (∀ (i : Nat) (l : List Act), t.todo[i]? = some l → Outside n s l) → t.sh.log.count n = 0

theorem count_members (n : Nat) (l : List Nat) :
    (l.flatMap (fun m => [Act.acquire (.entry m), .mark m, .release (.entry m)])).count (.mark n) = l.count n := by
  induction l with
  | nil => rfl
  | cons m l ih =>
    rw [List.flatMap_cons, List.count_append, ih, List.count_cons (l := l)]
    by_cases h : m = n
    · subst h; simp; omega
    · have : ¬ (Act.mark m = Act.mark n) := fun hc => h (by injection hc)
      simp [h]

theorem Balanced.stm {L : Layout} : ∀ {p r : List Act} {h : List Mutex} {s : Nat}, (∀ a ∈ p, Inner L a) →
    Balanced h (p ++ .markUnpacked s :: .release .stm :: r) → Mutex.stm ∈ h
  | [], r, h, s, _, hb => by
    obtain ⟨h', rfl, _⟩ := hb
    simp
  | a :: p, r, h, s, hi, hb => by
    have hi' : ∀ x ∈ p, Inner L x := fun x hx => hi x (by simp [hx])
    have ha := hi a (by simp)
    cases a with
    | acquire l =>
      have := Balanced.stm hi' (show Balanced (l :: h) (p ++ _) from hb)
      rcases List.mem_cons.mp this with h1 | h1
      · exfalso; exact absurd h1 (Ne.symm ha)
      · exact h1
    | release l =>
      obtain ⟨h', rfl, hb⟩ := hb
      exact List.mem_cons_of_mem _ (Balanced.stm hi' hb)
    | loadLocked n =>
      obtain ⟨h', rfl, hb⟩ := hb
      exact List.mem_cons_of_mem _ (Balanced.stm hi' hb)
    | readLocked n =>
      obtain ⟨h', rfl, hb⟩ := hb
      exact List.mem_cons_of_mem _ (Balanced.stm hi' hb)
    | unpackLocked n => exact ha.elim
    | markUnpacked n => exact ha.elim
    | load n => exact Balanced.stm hi' hb
    | mark n => exact Balanced.stm hi' hb
    | read n => exact Balanced.stm hi' hb
    | markRead n => exact Balanced.stm hi' hb

theorem Unpacking.stm {sh : Shared} {n s : Nat} {l : List Act} (hu : Unpacking L sh n s l) {h : List Mutex} (hb : Balanced h l) : Mutex.stm ∈ h := by
  obtain ⟨p, r, rfl, hi, _⟩ := hu
  exact hb.stm hi

theorem Unpacking.not_outside {sh : Shared} {n s : Nat} {l : List Act} (hu : Unpacking L sh n s l) : ¬ Outside n s l := by
  obtain ⟨p, r, rfl, _⟩ := hu
  intro h; exact h.2.1 (by simp)

theorem oncePacked_perform (hL : NoNesting L) {n s : Nat} (hp : L.place n = .packed s) (h1s : (L.members s).count n = 1)
    (hos : ∀ s', s' ≠ s → n ∉ L.members s') {t : Threads} {i : Nat} {held : Nat → List Mutex} {a : Act} {rest more : List Act} {sh : Shared}
    (hs : OncePacked L n s t held) (h1 : t.todo[i]? = some (a :: rest)) (h2 : perform L i t.sh a = some (sh, more)) :
    OncePacked L n s ⟨sh, t.todo.set i (more ++ rest)⟩ (fun j => if j = i then heldAfter (held i) a else held j) := by
  obtain ⟨_, e2, _, e4⟩ := perform_loaded h2
  obtain ⟨m1, m2, m3⟩ := perform_more h2
  have hlt : i < t.todo.length := (List.getElem?_eq_some_iff.mp h1).1
  have hself : (t.todo.set i (more ++ rest))[i]? = some (more ++ rest) := List.getElem?_set_self hlt
  have kept : a ≠ .markUnpacked s → sh.unpacked s = t.sh.unpacked s := by
    intro ha; rw [Bool.eq_iff_iff, e2 s]; simp [ha]
  have counted : a ≠ .mark n → sh.log.count n = t.sh.log.count n := by
    intro ha; rw [e4 n, if_neg ha]; rfl
  -- a thread besides `i` that unpacks means `i` is outside and not about to take the lock
  have other : ∀ (j : Nat) (l : List Act), j ≠ i → t.todo[j]? = some l → Unpacking L t.sh n s l → Outside n s (a :: rest) ∧ ∀ s', a ≠ .unpackLocked s' := by
    intro j l hji hj hu
    have hj' := hu.stm (hs.fair.2.1 j l hj)
    constructor
    · rcases hs.place i _ h1 with h | ⟨_, h⟩
      · exact h
      · exact absurd (hs.fair.1.unique hj' (h.stm (hs.fair.2.1 i _ h1))) hji
    · rintro s' rfl
      obtain ⟨h', hh, _⟩ := hs.fair.2.1 i _ h1
      exact hji (hs.fair.1.unique hj' (by rw [hh]; simp))
  rcases hs.place i _ h1 with ho | ⟨hf, p, r, hl, hi, hc, hr⟩
  · have ha1 : a ≠ .mark n := fun h => ho.1 (by rw [h]; simp)
    have ha2 : a ≠ .markUnpacked s := fun h => ho.2.1 (by rw [h]; simp)
    have ha3 : a ≠ .loadLocked n := fun h => ho.2.2 (by rw [h]; simp)
    have hrest : Outside n s rest := ⟨fun h => ho.1 (by simp [h]), fun h => ho.2.1 (by simp [h]), fun h => ho.2.2 (by simp [h])⟩
    by_cases hin : Act.markUnpacked s ∈ more
    · obtain ⟨rfl, hu⟩ := m1 s hin
      have zero : t.sh.log.count n = 0 := by
        refine hs.none hu fun j l hj => ?_
        by_cases hji : j = i
        · subst hji; rw [h1] at hj; injection hj with hj; subst hj; exact ho
        · rcases hs.place j l hj with h | ⟨_, h⟩
          · exact h
          · exact absurd rfl ((other j l hji hj h).2 s)
      rw [perform, if_neg (by rw [hu]; simp)] at h2
      injection h2 with h2; injection h2 with h3 h2; subst h2; subst h3
      have hun : Unpacking L t.sh n s (((L.heads s).map Act.load ++ [Act.read s] ++
          (L.members s).flatMap (fun m => [.acquire (.entry m), .mark m, .release (.entry m)]) ++ [.markUnpacked s, .release .stm]) ++ rest) := by
        refine ⟨(L.heads s).map Act.load ++ [Act.read s] ++
          (L.members s).flatMap (fun m => [.acquire (.entry m), .mark m, .release (.entry m)]), rest, by simp, ?_, ?_, hrest⟩
        · intro x hx
          rw [List.mem_append, List.mem_append] at hx
          rcases hx with (hx | hx) | hx
          · obtain ⟨k, hk, rfl⟩ := List.mem_map.mp hx
            exact hL.heads s k hk
          · simp at hx; subst hx; trivial
          · obtain ⟨m, _, hm⟩ := List.mem_flatMap.mp hx
            simp at hm
            rcases hm with rfl | rfl | rfl
            · simp [Inner]
            · trivial
            · simp [Inner]
        · rw [List.count_append, List.count_append, count_members, h1s, zero]
          have : ((L.heads s).map Act.load).count (Act.mark n) = 0 := by
            rw [List.count_eq_zero]; simp
          rw [this]; simp
      refine ⟨fair_perform hs.fair h1 (by rw [perform, if_neg (by rw [hu]; simp)]), fun h => ?_, fun j l hj => ?_, fun _ hall => ?_⟩
      · dsimp only at h; rw [hu] at h; cases h
      · rcases set_cases h1 hj with ⟨rfl, rfl⟩ | ⟨_, hj⟩
        · exact Or.inr ⟨hu, hun⟩
        · exact hs.place j l hj
      · exact absurd (hall i _ hself) hun.not_outside
    · have hnew : Outside n s (more ++ rest) := by
        refine ⟨fun h => ?_, fun h => ?_, fun h => ?_⟩
        · rcases List.mem_append.mp h with h | h
          · rcases m2 n h with ⟨h, _⟩ | ⟨s', rfl, hu, hm⟩
            · exact ha3 h
            · have : s' = s := Decidable.byContradiction fun hne => hos s' hne hm
              subst this
              rw [perform, if_neg (by rw [hu]; simp)] at h2
              injection h2 with h2; injection h2 with _ h2; subst h2
              exact hin (by simp)
          · exact hrest.1 h
        · rcases List.mem_append.mp h with h | h
          · exact hin h
          · exact hrest.2.1 h
        · rcases List.mem_append.mp h with h | h
          · obtain ⟨k, hk⟩ := m3 n h
            rw [hp] at hk; cases hk
          · exact hrest.2.2 h
      refine ⟨fair_perform hs.fair h1 h2, fun h => ?_, fun j l hj => ?_, fun h hall => ?_⟩
      · dsimp only at h ⊢; rw [kept ha2] at h; rw [counted ha1]; exact hs.done h
      · rcases set_cases h1 hj with ⟨rfl, rfl⟩ | ⟨_, hj⟩
        · exact Or.inl hnew
        · rcases hs.place j l hj with h | ⟨h, p, r, q1, q2, q3, q4⟩
          · exact Or.inl h
          · exact Or.inr ⟨by show sh.unpacked s = false; rw [kept ha2]; exact h, p, r, q1, q2, by show _ + sh.log.count n = 1; rw [counted ha1]; exact q3, q4⟩
      · dsimp only at h ⊢; rw [kept ha2] at h; rw [counted ha1]
        refine hs.none h fun j l hj => ?_
        by_cases hji : j = i
        · subst hji; rw [h1] at hj; injection hj with hj; subst hj; exact ho
        · exact hall j l (by dsimp only; rw [List.getElem?_set_ne (Ne.symm hji)]; exact hj)
  · have hui : Unpacking L t.sh n s (a :: rest) := ⟨p, r, hl, hi, hc, hr⟩
    have others : ∀ (j : Nat) (l : List Act), j ≠ i → t.todo[j]? = some l → Outside n s l := by
      intro j l hji hj
      rcases hs.place j l hj with h | ⟨_, h⟩
      · exact h
      · exact absurd (other j l hji hj h).1 hui.not_outside
    cases p with
    | nil =>
      injection hl with ha hrest
      subst ha
      have hmore : more = [] := by injection h2 with h2; injection h2 with _ h2; exact h2.symm
      have hu' : sh.unpacked s = true := (e2 s).mpr (Or.inr rfl)
      refine ⟨fair_perform hs.fair h1 h2, fun _ => ?_, fun j l hj => ?_, fun h _ => ?_⟩
      · show sh.log.count n = 1
        rw [counted (by simp)]; simpa using hc
      · left
        rcases set_cases h1 hj with ⟨rfl, rfl⟩ | ⟨hji, hj⟩
        · rw [hmore, hrest]
          obtain ⟨r1, r2, r3⟩ := hr
          exact ⟨by simp [r1], by simp [r2], by simp [r3]⟩
        · exact others j l hji hj
      · dsimp only at h; rw [hu'] at h; cases h
    | cons b p =>
      injection hl with ha hrest
      subst ha
      have hia := hi a (by simp)
      have ha2 : a ≠ .markUnpacked s := by rintro rfl; exact hia
      have hun : Unpacking L sh n s (more ++ rest) := by
        refine ⟨more ++ p, r, by rw [hrest]; simp, fun x hx => ?_, ?_, hr⟩
        · rcases List.mem_append.mp hx with hx | hx
          · exact inner_perform hL h2 hia x hx
          · exact hi x (by simp [hx])
        · rw [List.count_cons] at hc
          rw [List.count_append, e4 n]
          by_cases ha : a = .mark n
          · subst ha
            have hmore : more = [] := by injection h2 with h2; injection h2 with _ h2; exact h2.symm
            rw [hmore]; simp at hc ⊢; omega
          · have : more.count (.mark n) = 0 := by
              rw [List.count_eq_zero]; intro hx
              rcases m2 n hx with ⟨rfl, _⟩ | ⟨s', rfl, _⟩
              · obtain ⟨k, hk⟩ := hia
                rw [hp] at hk; cases hk
              · exact hia
            rw [this, if_neg ha]
            rw [if_neg (by simpa using ha)] at hc
            omega
      refine ⟨fair_perform hs.fair h1 h2, fun h => ?_, fun j l hj => ?_, fun _ hall => ?_⟩
      · dsimp only at h; rw [kept ha2, hf] at h; cases h
      · rcases set_cases h1 hj with ⟨rfl, rfl⟩ | ⟨hji, hj⟩
        · exact Or.inr ⟨by show sh.unpacked s = false; rw [kept ha2]; exact hf, hun⟩
        · exact Or.inl (others j l hji hj)
      · exact absurd (hall i _ hself) hun.not_outside

theorem oncePacked_start (L : Layout) (n s : Nat) (calls : List (List Call)) : OncePacked L n s (Threads.start calls) (fun _ => []) := by
  have hout : ∀ (i : Nat) (l : List Act), (Threads.start calls).todo[i]? = some l → Outside n s l := by
    intro i l hi
    obtain ⟨cs, _, rfl⟩ := start_todo hi
    exact ⟨fun h => (calls_plain h).1 n rfl, fun h => (calls_plain h).2.1 s rfl, fun h => (calls_plain h).2.2.1 n rfl⟩
  exact ⟨fair_start calls, (fun h => by cases h), fun i l hi => Or.inl (hout i l hi), fun _ _ => rfl⟩

theorem run_oncePacked (hL : NoNesting L) {n s : Nat} (hp : L.place n = .packed s) (h1s : (L.members s).count n = 1)
    (hos : ∀ s', s' ≠ s → n ∉ L.members s') : ∀ (sched : List Nat) {t t' : Threads} {held : Nat → List Mutex},
    OncePacked L n s t held → t.run L sched = some t' → ∃ held', OncePacked L n s t' held'
  | [], t, t', held, hs, h => by injection h with h; subst h; exact ⟨held, hs⟩
  | i :: l, t, t', held, hs, h => by
    rw [Threads.run, Option.bind_eq_some_iff] at h
    obtain ⟨u, h1, h2⟩ := h
    obtain ⟨a, rest, sh, more, e1, e2, rfl⟩ := step_parts h1
    exact run_oncePacked hL hp h1s hos l (oncePacked_perform hL hp h1s hos hs e1 e2) h2

theorem OncePacked.le_one {n s : Nat} {t : Threads} {held : Nat → List Mutex} (hs : OncePacked L n s t held) : t.sh.log.count n ≤ 1 := by
  cases hu : t.sh.unpacked s with
  | true => rw [hs.done hu]; exact Nat.le_refl _
  | false =>
    by_cases hall : ∀ (i : Nat) (l : List Act), t.todo[i]? = some l → Outside n s l
    · rw [hs.none hu hall]; exact Nat.zero_le _
    · have : ∃ (i : Nat) (l : List Act), t.todo[i]? = some l ∧ ¬ Outside n s l := by
        refine Classical.byContradiction fun hno => hall fun i l hi => Classical.byContradiction fun hc => hno ⟨i, l, hi, hc⟩
      obtain ⟨i, l, hi, hc⟩ := this
      rcases hs.place i l hi with h | ⟨_, p, r, _, _, h, _⟩
      · exact absurd h hc
      · omega

/-- The log has the objects that are loaded. -/
theorem run_logged : ∀ (sched : List Nat) {t t' : Threads}, (∀ n, t.sh.loaded n = true ↔ n ∈ t.sh.log) → t.run L sched = some t' →
    ∀ n, t'.sh.loaded n = true ↔ n ∈ t'.sh.log
  | [], t, t', hs, h => by injection h with h; subst h; exact hs
  | i :: l, t, t', hs, h => by
    rw [Threads.run, Option.bind_eq_some_iff] at h
    obtain ⟨u, h1, h2⟩ := h
    obtain ⟨a, rest, sh, more, e1, e2, rfl⟩ := step_parts h1
    refine run_logged l (fun n => ?_) h2
    obtain ⟨k1, _, _, k4⟩ := perform_loaded e2
    show sh.loaded n = true ↔ n ∈ sh.log
    rw [k1 n, hs n, ← List.count_pos_iff, ← List.count_pos_iff, k4 n]
    by_cases ha : a = .mark n
    · simp [ha]
    · simp [ha]
end

end VPdf
