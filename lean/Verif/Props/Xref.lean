import Verif.Lemmas.Xref
/-
  C16, C17, C18, C19, C58: cross-reference sections, chains and the allocation of object numbers.
-/
namespace VPdf
open Spec

/-! ### C16 -/

/-- One operation on a section; an operation that throws leaves it as it was. -/
def secApply (s : Section) : SecOp → Section
  | .add e => match s.add e with | .ok s' => s' | .error _ => s
  | .remove n => (s.remove n).1
  | .clear => s.clear

/-- Invariant: the entries have different numbers and are those of the map. -/
private def Agrees (kind : SectionKind) (s : Section) (m : Nat → Option XEntry) : Prop :=
  s.kind = kind ∧ s.hybrid = none ∧ Distinct s.entries ∧ ∀ n, EntrySet.find n s.entries = m n

private theorem agrees_step {kind : SectionKind} {s : Section} {m : Nat → Option XEntry} (h : Agrees kind s m)
    (o : SecOp) : Agrees kind (secApply s o) (secStep kind m o) := by
  obtain ⟨hk, hh, hd, hm⟩ := h
  cases o with
  | clear => exact ⟨hk, hh, List.Pairwise.nil, fun n => rfl⟩
  | remove n =>
    obtain ⟨h1, -, h3⟩ := remove_spec hd n
    refine ⟨hk, hh, h1, fun k => ?_⟩
    show EntrySet.find k (EntrySet.remove n s.entries).1 = if k = n then none else m k
    rw [h3, hm]
  | add e =>
    obtain ⟨l', e1, e2, e3⟩ := add_spec hd e
    obtain ⟨num, gen, ek⟩ := e
    obtain ⟨sk, es, hy⟩ := s
    dsimp only at hk hh hd hm e1 e3
    subst hk hh
    unfold secApply secStep Section.add
    dsimp only
    rw [e1]
    have other : Agrees sk ⟨sk, l', none⟩ (fun k => if k = num then some ⟨num, gen, ek⟩ else m k) :=
      ⟨rfl, rfl, e2, fun k => by rw [e3, hm]⟩
    cases sk <;> cases ek <;> first | exact other | exact ⟨rfl, rfl, hd, hm⟩

private theorem agrees_run {kind : SectionKind} (ops : List SecOp) {s : Section} {m : Nat → Option XEntry}
    (h : Agrees kind s m) : Agrees kind (ops.foldl secApply s) (ops.foldl (secStep kind) m) := by
  induction ops generalizing s m with
  | nil => exact h
  | cons o ops ih => exact ih (agrees_step h o)

/-- **C16.** After any sequence of operations on a new section of any kind, looking up a number gives the entry of the
mathematical map or reports that it is missing, `Contains` agrees, the enumeration lists exactly the entries of the
map in strictly increasing order of numbers, and the size is the length of that enumeration. -/
theorem C16_section_is_map (kind : SectionKind) (ops : List SecOp) :
    let s := ops.foldl secApply ⟨kind, [], none⟩
    let m := ops.foldl (secStep kind) (fun _ => none)
    (∀ n, s.find n = match m n with | some e => .ok e | none => .error .missing) ∧
    (∀ n, s.contains n = (m n).isSome) ∧
    s.enumerate.Pairwise (fun a b => a.num < b.num) ∧ (∀ e, e ∈ s.enumerate ↔ m e.num = some e) ∧
    s.size = s.enumerate.length := by
  intro s m
  obtain ⟨-, hh, hd, hm⟩ : Agrees kind s m := agrees_run ops ⟨rfl, rfl, List.Pairwise.nil, fun n => rfl⟩
  obtain ⟨h1, h2, h3⟩ := sorted_spec hd
  refine ⟨fun n => ?_, fun n => ?_, h1, fun e => ?_, h3.symm⟩
  · unfold Section.find; rw [hm, hh]; cases m n <;> rfl
  · unfold Section.contains; rw [hm, hh]; cases m n <;> rfl
  · unfold Section.enumerate; rw [h2, ← hm, find_iff hd]; simp

/-- **C16**, results: adding succeeds except for a compressed entry in a table, and removing reports whether the number
was present. -/
theorem C16_results (s : Section) (h : WellFormed s) :
    (∀ e, (∃ s', s.add e = .ok s') ↔ ¬ (s.kind = .table ∧ ∃ a b, e.kind = .compressed a b)) ∧
    (∀ n, (s.remove n).2 = true ↔ ∃ e ∈ s.entries, e.num = n) := by
  constructor
  · intro e
    obtain ⟨l', e1, -, -⟩ := add_spec h.1 e
    obtain ⟨num, gen, ek⟩ := e
    unfold Section.add
    rw [e1]
    obtain ⟨kind, es, hy⟩ := s
    cases kind <;> cases ek <;>
      simp only [reduceCtorEq, false_and, and_false, not_false_eq_true, iff_true, exists_false] <;>
      first | exact ⟨_, rfl⟩ | skip
    constructor
    · rintro ⟨_, hx⟩; exact nomatch hx
    · intro hx; exact absurd ⟨trivial, _, _, rfl⟩ hx
  · intro n
    obtain ⟨-, h2, -⟩ := remove_spec h.1 n
    show (EntrySet.remove n s.entries).2 = true ↔ _
    rw [h2, Option.isSome_iff_exists]
    constructor
    · rintro ⟨e, he⟩; exact ⟨e, find_some he⟩
    · rintro ⟨e, he, rfl⟩; exact ⟨e, find_of_mem h.1 he⟩

example :
    let s := [SecOp.add ⟨7, 0, .used 100⟩, .add ⟨3, 1, .free 0⟩, .add ⟨7, 2, .used 200⟩, .add ⟨9, 0, .compressed 5 1⟩,
      .add ⟨4, 0, .used 1⟩, .remove 4].foldl secApply ⟨.table, [], none⟩
    s.enumerate = [⟨3, 1, .free 0⟩, ⟨7, 2, .used 200⟩] ∧ s.find 7 = .ok ⟨7, 2, .used 200⟩ ∧
      s.find 4 = .error .missing := by decide

/-! ### C17 -/

private theorem chain_cases (s : Section) (hw : WellFormed s) (n g : Nat) (k : Res XEntry) :
    (∃ e, Holds s e ∧ e.num = n ∧ e.gen = g ∧
      (if !s.contains n then k else do let e ← s.find n; if e.gen != g then k else pure e) = .ok e) ∨
    ((∀ e, Holds s e → ¬ (e.num = n ∧ e.gen = g)) ∧
      (if !s.contains n then k else do let e ← s.find n; if e.gen != g then k else pure e) = k) := by
  by_cases hc : s.contains n = true
  · obtain ⟨e, he⟩ := (section_contains s n).mp hc
    have hh := (section_find_holds hw).mp he
    by_cases hg : e.gen = g
    · left; refine ⟨e, hh.1, hh.2, hg, ?_⟩
      rw [hc, he]; simp [hg, bind, Except.bind, pure, Except.pure]
    · right; refine ⟨fun x hx hxn => ?_, ?_⟩
      · have := (section_find_holds hw).mpr ⟨hx, hxn.1⟩
        rw [he] at this; injection this with this; subst this; exact hg hxn.2
      · rw [hc, he]; simp [hg, bind, Except.bind]
  · right
    refine ⟨fun x hx hxn => ?_, by simp [hc]⟩
    exact hc ((section_contains s n).mpr ⟨x, (section_find_holds hw).mpr ⟨hx, hxn.1⟩⟩)

/-- **C17.** Looking up a number and generation in a chain gives an entry exactly if it is the entry of the newest
section that has an entry with that number and generation. -/
theorem C17_newest_match (c : Chain) (hw : ∀ s ∈ c, WellFormed s) (n g : Nat) (e : XEntry) :
    c.find n g = .ok e ↔ ∃ newer s older, c = newer ++ s :: older ∧ Holds s e ∧ e.num = n ∧ e.gen = g ∧
      ∀ s' ∈ newer, ∀ e', Holds s' e' → ¬ (e'.num = n ∧ e'.gen = g) := by
  induction c with
  | nil => simp [Chain.find]
  | cons s rest ih =>
    have ih := ih (fun x hx => hw x (List.mem_cons_of_mem _ hx))
    have hws := hw s List.mem_cons_self
    rw [Chain.find]
    rcases chain_cases s hws n g (Chain.find rest n g) with ⟨x, hx, hn, hg, heq⟩ | ⟨hnone, heq⟩
    · rw [heq]
      constructor
      · intro h; injection h with h; subst h
        exact ⟨[], s, rest, rfl, hx, hn, hg, by simp⟩
      · rintro ⟨newer, s', older, hc, he, hen, heg, hnew⟩
        cases newer with
        | nil =>
          injection hc with h1 h2; subst h1
          have a := (section_find_holds hws).mpr ⟨hx, hn⟩
          rw [(section_find_holds hws).mpr ⟨he, hen⟩] at a
          exact a.symm
        | cons y newer =>
          injection hc with h1 h2; subst h1
          exact absurd ⟨hn, hg⟩ (hnew s List.mem_cons_self x hx)
    · rw [heq, ih]
      constructor
      · rintro ⟨newer, s', older, hc, he, hen, heg, hnew⟩
        refine ⟨s :: newer, s', older, by rw [hc]; rfl, he, hen, heg, ?_⟩
        intro y hy
        rcases List.mem_cons.mp hy with rfl | hy
        · exact hnone
        · exact hnew y hy
      · rintro ⟨newer, s', older, hc, he, hen, heg, hnew⟩
        cases newer with
        | nil => injection hc with h1 h2; subst h1; exact absurd ⟨hen, heg⟩ (hnone e he)
        | cons y newer =>
          injection hc with h1 h2; subst h1
          exact ⟨newer, s', older, h2, he, hen, heg, fun z hz => hnew z (List.mem_cons_of_mem _ hz)⟩

/-- **C17**, failures: the look-up reports a missing object exactly if no section has the entry, there is no third
outcome, and `Contains` tells the two apart. -/
theorem C17_missing (c : Chain) (hw : ∀ s ∈ c, WellFormed s) (n g : Nat) :
    (c.find n g = .error .missing ↔ ∀ s ∈ c, ∀ e, Holds s e → ¬ (e.num = n ∧ e.gen = g)) ∧
    (c.find n g = .error .missing ∨ ∃ e, c.find n g = .ok e) ∧
    (c.contains n g = .ok (decide (c.find n g ≠ .error .missing))) := by
  induction c with
  | nil => simp [Chain.find, Chain.contains]
  | cons s rest ih =>
    have ih := ih (fun x hx => hw x (List.mem_cons_of_mem _ hx))
    have hws := hw s List.mem_cons_self
    rw [Chain.find, Chain.contains]
    have hc : ∀ k : Res Bool, (∃ e, Holds s e ∧ e.num = n ∧ e.gen = g) ∧
        (if !s.contains n then k else do let e ← s.find n; if e.gen != g then k else pure true) = .ok true ∨
        (∀ e, Holds s e → ¬ (e.num = n ∧ e.gen = g)) ∧
        (if !s.contains n then k else do let e ← s.find n; if e.gen != g then k else pure true) = k := by
      intro k
      by_cases hc : s.contains n = true
      · obtain ⟨e, he⟩ := (section_contains s n).mp hc
        have hh := (section_find_holds hws).mp he
        by_cases hg : e.gen = g
        · left; refine ⟨⟨e, hh.1, hh.2, hg⟩, ?_⟩
          rw [hc, he]; simp [hg, bind, Except.bind, pure, Except.pure]
        · right; refine ⟨fun x hx hxn => ?_, ?_⟩
          · have := (section_find_holds hws).mpr ⟨hx, hxn.1⟩
            rw [he] at this; injection this with this; subst this; exact hg hxn.2
          · rw [hc, he]; simp [hg, bind, Except.bind]
      · right
        refine ⟨fun x hx hxn => ?_, by simp [hc]⟩
        exact hc ((section_contains s n).mpr ⟨x, (section_find_holds hws).mpr ⟨hx, hxn.1⟩⟩)
    rcases chain_cases s hws n g (Chain.find rest n g) with ⟨x, hx, hn, hg, heq⟩ | ⟨hnone, heq⟩
    · rw [heq]
      rcases hc (Chain.contains rest n g) with ⟨-, hk⟩ | ⟨hno, -⟩
      · rw [hk]
        refine ⟨?_, Or.inr ⟨x, rfl⟩, by simp⟩
        simp only [reduceCtorEq, false_iff]
        intro h; exact h s List.mem_cons_self x hx ⟨hn, hg⟩
      · exact absurd ⟨hn, hg⟩ (hno x hx)
    · rw [heq]
      rcases hc (Chain.contains rest n g) with ⟨⟨e, he, hen⟩, -⟩ | ⟨-, hk⟩
      · exact absurd hen (hnone e he)
      · rw [hk]
        refine ⟨?_, ih.2.1, ih.2.2⟩
        rw [ih.1]
        constructor
        · intro h y hy
          rcases List.mem_cons.mp hy with rfl | hy
          · exact hnone
          · exact h y hy
        · intro h y hy; exact h y (List.mem_cons_of_mem _ hy)

/-- A chain of three sections, the second with a hybrid stream; number 5 has generation 1 in the newest section. -/
private def exampleChain : Chain :=
  [⟨.stream, [⟨5, 1, .used 900⟩, ⟨6, 0, .compressed 9 2⟩], none⟩,
   ⟨.table, [⟨5, 0, .used 500⟩, ⟨0, 65535, .free 0⟩], some [⟨8, 0, .used 77⟩]⟩,
   ⟨.table, [⟨5, 0, .used 100⟩, ⟨8, 0, .used 50⟩], none⟩]

example : (∀ s ∈ exampleChain, WellFormed s) ∧ exampleChain.find 5 0 = .ok ⟨5, 0, .used 500⟩ ∧
    exampleChain.find 8 0 = .ok ⟨8, 0, .used 77⟩ ∧ exampleChain.find 8 1 = .error .missing := by
  refine ⟨?_, by decide, by decide, by decide⟩
  intro s hs
  simp only [exampleChain, List.mem_cons, List.not_mem_nil, or_false] at hs
  rcases hs with rfl | rfl | rfl <;> refine ⟨by unfold Distinct; decide, ?_⟩ <;> intro h hh <;> simp at hh
  subst hh; unfold Distinct; decide

/-! ### C18 -/

/-- What happens to a file between allocations: any change whatever of its sections (releases, additions, removals). -/
inductive AllocOp where
  | allocate
  | edit (f : Chain → Chain)

/-- The numbers handed out by a sequence of operations, each with the chain at that moment; an allocation that fails
hands out none. -/
def handedOut : Alloc → List AllocOp → List (Chain × Nat)
  | _, [] => []
  | a, .edit f :: ops => handedOut { a with chain := f a.chain } ops
  | a, .allocate :: ops =>
    match a.allocate with
    | .ok (e, a') => (a.chain, e.num) :: handedOut a' ops
    | .error _ => handedOut a ops

theorem firstAbsent_spec (c : Chain) (f i k : Nat) (h : firstAbsent c f i = some k) :
    i ≤ k ∧ k < i + f ∧ (∀ s ∈ c, s.contains k = false) ∧ ∀ j, i ≤ j → j < k → ∃ s ∈ c, s.contains j = true := by
  induction f generalizing i with
  | zero => simp [firstAbsent] at h
  | succ f ih =>
    rw [firstAbsent] at h
    split at h
    · rename_i ha
      injection h with h; subst h
      refine ⟨Nat.le_refl _, by omega, fun s hs => ?_, fun j h1 h2 => by omega⟩
      simpa using List.all_eq_true.mp ha s hs
    · rename_i ha
      obtain ⟨h1, h2, h3, h4⟩ := ih _ h
      refine ⟨by omega, by omega, h3, fun j hj hjk => ?_⟩
      by_cases hji : j = i
      · subst hji
        apply Classical.byContradiction
        intro hno
        refine ha (List.all_eq_true.mpr fun s hs => ?_)
        simpa using fun hsc => hno ⟨s, hs, hsc⟩
      · exact h4 j (by omega) hjk

theorem occurs_contains {c : Chain} {n : Nat} (h : Occurs c n) : ∃ s ∈ c, s.contains n = true := by
  obtain ⟨s, hs, e, he, hn⟩ := h
  refine ⟨s, hs, ?_⟩
  unfold Section.contains
  cases hf : EntrySet.find n s.entries with
  | some x => rfl
  | none =>
    rcases he with he | ⟨l, hl, hel, -⟩
    · exact absurd hn (find_none.mp hf e he)
    · simp only [hl]
      cases hq : EntrySet.find n l with
      | some x => rfl
      | none => exact absurd hn (find_none.mp hq e hel)

theorem allocate_ok {a a' : Alloc} {e : XEntry} (h : a.allocate = .ok (e, a')) :
    ∃ s s' rest, a.chain = s :: rest ∧ e = ⟨e.num, 0, .used (-1)⟩ ∧ s.add e = .ok s' ∧ a' = ⟨s' :: rest, e.num + 1⟩ ∧
      firstAbsent a.chain (2 ^ 64 - 1 - a.next) a.next = some e.num := by
  rw [Alloc.allocate] at h
  split at h
  · exact nomatch h
  · rename_i i hi
    split at h
    · exact nomatch h
    · rename_i s rest hc
      dsimp only at h
      cases ha : s.add ⟨i, 0, .used (-1)⟩ with
      | error f => rw [ha] at h; exact nomatch h
      | ok s' =>
        rw [ha] at h
        injection h with h; injection h with h1 h2
        subst h1
        exact ⟨s, s', rest, hc, rfl, ha, h2.symm, hi⟩

/-- **C18.** In any history of a file, with arbitrary changes of its sections between allocations, every number handed
out is in none of the sections at that moment. -/
theorem C18_number_is_fresh (a : Alloc) (ops : List AllocOp) :
    ∀ x ∈ handedOut a ops, ¬ Occurs x.1 x.2 := by
  induction ops generalizing a with
  | nil => simp [handedOut]
  | cons o ops ih =>
    cases o with
    | edit f => exact ih _
    | allocate =>
      rw [handedOut]
      cases h : a.allocate with
      | error f => exact ih _
      | ok p =>
        obtain ⟨e, a'⟩ := p
        obtain ⟨s, s', rest, hc, -, -, -, hf⟩ := allocate_ok h
        intro x hx
        rcases List.mem_cons.mp hx with rfl | hx
        · intro ho
          obtain ⟨t, ht, hct⟩ := occurs_contains ho
          have := (firstAbsent_spec _ _ _ _ hf).2.2.1 t ht
          rw [hct] at this; exact nomatch this
        · exact ih _ x hx

private theorem handedOut_ge (a : Alloc) (ops : List AllocOp) : ∀ x ∈ handedOut a ops, a.next ≤ x.2 := by
  induction ops generalizing a with
  | nil => simp [handedOut]
  | cons o ops ih =>
    cases o with
    | edit f => exact ih { a with chain := f a.chain }
    | allocate =>
      rw [handedOut]
      cases h : a.allocate with
      | error f => exact ih _
      | ok p =>
        obtain ⟨e, a'⟩ := p
        obtain ⟨s, s', rest, hc, -, -, ha', hf⟩ := allocate_ok h
        have hge := (firstAbsent_spec _ _ _ _ hf).1
        intro x hx
        rcases List.mem_cons.mp hx with rfl | hx
        · exact hge
        · have := ih _ x hx
          rw [ha'] at this
          simp only at this; omega

/-- **C18.** The numbers handed out are strictly increasing, so no number is handed out twice, even if the object was
released or its entry removed. -/
theorem C18_never_twice (a : Alloc) (ops : List AllocOp) :
    (handedOut a ops).Pairwise (fun x y => x.2 < y.2) := by
  induction ops generalizing a with
  | nil => simp [handedOut]
  | cons o ops ih =>
    cases o with
    | edit f => exact ih _
    | allocate =>
      rw [handedOut]
      cases h : a.allocate with
      | error f => exact ih _
      | ok p =>
        obtain ⟨e, a'⟩ := p
        obtain ⟨s, s', rest, hc, -, -, ha', hf⟩ := allocate_ok h
        refine List.pairwise_cons.mpr ⟨fun x hx => ?_, ih _⟩
        have := handedOut_ge a' ops x hx
        rw [ha'] at this
        simp only at this ⊢; omega

/-- **C18**, effect: after an allocation the new number is found in the chain as an entry of generation 0, and the
look-up of every other number is unchanged. -/
theorem C18_allocation_effect (a a' : Alloc) (e : XEntry) (hw : ∀ s ∈ a.chain, WellFormed s)
    (h : a.allocate = .ok (e, a')) :
    a'.chain.find e.num 0 = .ok e ∧ ∀ n g, n ≠ e.num → a'.chain.find n g = a.chain.find n g := by
  obtain ⟨s, s', rest, hc, he, hadd, ha', hf⟩ := allocate_ok h
  have hws := hw s (by rw [hc]; exact List.mem_cons_self)
  obtain ⟨l', e1, e2, e3⟩ := add_spec hws.1 e
  have hs' : s' = { s with entries := l' } := by
    rw [Section.add, e1] at hadd
    rw [he] at hadd
    simp only [Bool.and_false, Bool.false_eq_true, if_false] at hadd
    injection hadd with hadd; exact hadd.symm
  have hfind : ∀ n, s'.find n = if n = e.num then .ok e else s.find n := by
    intro n
    rw [hs', Section.find, Section.find]
    simp only [e3]
    by_cases hn : n = e.num
    · simp [hn]
    · simp [hn]
  have hcont : ∀ n, s'.contains n = if n = e.num then true else s.contains n := by
    intro n
    rw [hs', Section.contains, Section.contains]
    simp only [e3]
    by_cases hn : n = e.num
    · simp [hn]
    · simp [hn]
  have hgen : e.gen = 0 := by rw [he]
  rw [ha', hc]
  refine ⟨?_, fun n g hn => ?_⟩
  · rw [Chain.find, hcont, hfind, if_pos rfl, if_pos rfl]
    simp [hgen, bind, Except.bind, pure, Except.pure]
  · rw [Chain.find, Chain.find, hcont, hfind, if_neg hn, if_neg hn]

example : (handedOut Alloc.newFile [.allocate, .allocate, .edit (fun c => match c.release 1 0 with | .ok (c, _) => c | _ => c),
    .allocate, .edit (fun c => c.map (fun s => (s.remove 2).1)), .allocate]).map (·.2) = [0, 1, 2, 3] := by decide

/-! ### C58 -/

/-- **C58**, partial: if some section has an entry for number 0 - as in every document created or opened through the
document interface - number 0 is not handed out. -/
theorem C58_number_zero_partial (a a' : Alloc) (e : XEntry) (h0 : Occurs a.chain 0) (h : a.allocate = .ok (e, a')) :
    e.num ≠ 0 := by
  obtain ⟨s, s', rest, hc, -, -, -, hf⟩ := allocate_ok h
  intro hz
  obtain ⟨t, ht, hct⟩ := occurs_contains h0
  have := (firstAbsent_spec _ _ _ _ hf).2.2.1 t ht
  rw [hz, hct] at this; exact nomatch this

example : ∃ e a', (Alloc.mk [⟨.table, [⟨0, 65535, .free 0⟩], none⟩] 0).allocate = .ok (e, a') ∧ e.num = 1 :=
  ⟨⟨1, 0, .used (-1)⟩, ⟨[⟨.table, [⟨0, 65535, .free 0⟩, ⟨1, 0, .used (-1)⟩], none⟩], 2⟩, rfl, rfl⟩

/-- **C58** fails for a file created through the file interface: the first object gets number 0, which ISO 32000-1 7.5.4
reserves for the head of the list of free objects. -/
theorem C58_number_zero_counterexample : ∃ a', Alloc.newFile.allocate = .ok (⟨0, 0, .used (-1)⟩, a') := ⟨_, rfl⟩

/-! ### C19 -/

private theorem release_cases {s : Section} {rest : Chain} (hw : WellFormed s) {n g : Nat} {c' : Chain} {b : Bool}
    (h : Chain.release (s :: rest) n g = .ok (c', b)) :
    (∃ rest', (∀ e, Holds s e → ¬ (e.num = n ∧ e.gen = g)) ∧ Chain.release rest n g = .ok (rest', b) ∧ c' = s :: rest') ∨
    (∃ e l', e ∈ s.entries ∧ e.num = n ∧ e.gen = g ∧ b = true ∧ c' = { s with entries := l' } :: rest ∧ Distinct l' ∧
      ∀ k, EntrySet.find k l' = if k = n then some ⟨n, 0, .free 0⟩ else EntrySet.find k s.entries) ∨
    (∃ e, Holds s e ∧ e.num = n ∧ e.gen = g ∧ b = false ∧ c' = s :: rest) := by
  rw [Chain.release] at h
  have hnext : ∀ (c' : Chain) (b : Bool), (do let (rest, b) ← Chain.release rest n g; pure (s :: rest, b) : Res (Chain × Bool)) =
      .ok (c', b) → ∃ rest', Chain.release rest n g = .ok (rest', b) ∧ c' = s :: rest' := by
    intro c' b h
    cases hr : Chain.release rest n g with
    | error f => rw [hr] at h; exact nomatch h
    | ok p => rw [hr] at h; injection h with h; injection h with h1 h2; exact ⟨p.1, by rw [← h2], h1.symm⟩
  by_cases hc : s.contains n = true
  · obtain ⟨e, he⟩ := (section_contains s n).mp hc
    have hh := (section_find_holds hw).mp he
    rw [hc, he] at h
    by_cases hg : e.gen = g
    · simp only [Bool.not_true, Bool.false_eq_true, if_false, bind, Except.bind, hg, bne_self_eq_false] at h
      obtain ⟨r1, r2, r3⟩ := remove_spec hw.1 n
      have hrem : s.remove n = ({ s with entries := (EntrySet.remove n s.entries).1 }, (EntrySet.remove n s.entries).2) :=
        rfl
      rw [hrem, r2] at h
      cases hf : EntrySet.find n s.entries with
      | none =>
        have : EntrySet.remove n s.entries = (s.entries, false) := by unfold EntrySet.remove; rw [hf]
        rw [hf, this] at h
        simp only [Option.isSome_none, Bool.false_eq_true, if_false] at h
        injection h with h; injection h with h1 h2
        right; right; exact ⟨e, hh.1, hh.2, hg, h2.symm, h1.symm⟩
      | some x =>
        obtain ⟨hx, hxn⟩ := find_some hf
        have hxe : x = e := by
          rw [Section.find, hf] at he; injection he
        subst hxe
        rw [hf] at h
        obtain ⟨l', e1, e2, e3⟩ := add_spec r1 ⟨n, 0, .free 0⟩
        simp only [Option.isSome_some, if_true, Section.add, e1, Bool.and_false, Bool.false_eq_true, if_false, bind,
          Except.bind, pure, Except.pure] at h
        injection h with h; injection h with h1 h2
        right; left
        refine ⟨x, l', hx, hxn, hg, h2.symm, h1.symm, e2, fun k => ?_⟩
        rw [e3, r3]
        by_cases hk : k = n
        · rw [if_pos hk, if_pos hk]
        · rw [if_neg hk, if_neg hk, if_neg hk]
    · simp only [Bool.not_true, Bool.false_eq_true, if_false, bind, Except.bind] at h
      rw [if_pos (by simpa using hg)] at h
      obtain ⟨rest', h1, h2⟩ := hnext c' b h
      left
      refine ⟨rest', fun x hx hxn => ?_, h1, h2⟩
      have := (section_find_holds hw).mpr ⟨hx, hxn.1⟩
      rw [he] at this; injection this with this; subst this; exact hg hxn.2
  · rw [show s.contains n = false by simpa using hc] at h
    simp only [Bool.not_false, if_true] at h
    obtain ⟨rest', h1, h2⟩ := hnext c' b h
    left
    refine ⟨rest', fun x hx hxn => ?_, h1, h2⟩
    exact hc ((section_contains s n).mpr ⟨x, (section_find_holds hw).mpr ⟨hx, hxn.1⟩⟩)

/-- **C19**, other objects: a release, successful or not, changes no look-up of any other number. -/
theorem C19_others_unchanged (c c' : Chain) (b : Bool) (n g : Nat) (hw : ∀ s ∈ c, WellFormed s)
    (h : c.release n g = .ok (c', b)) : ∀ k j, k ≠ n → c'.find k j = c.find k j := by
  intro k j hk
  induction c generalizing c' b with
  | nil => injection h with h; injection h with h1 h2; rw [← h1]
  | cons s rest ih =>
    have hwr := fun x hx => hw x (List.mem_cons_of_mem _ hx)
    rcases release_cases (hw s List.mem_cons_self) h with ⟨rest', -, hr, rfl⟩ | ⟨e, l', -, -, -, -, rfl, -, hl⟩ |
      ⟨e, -, -, -, -, rfl⟩
    · rw [Chain.find, Chain.find, ih rest' b hwr hr]
    · rw [Chain.find, Chain.find]
      have h1 : Section.contains { s with entries := l' } k = s.contains k := by
        rw [Section.contains, Section.contains]; simp only [hl, if_neg hk]
      have h2 : Section.find { s with entries := l' } k = s.find k := by
        rw [Section.find, Section.find]; simp only [hl, if_neg hk]
      rw [h1, h2]
    · rfl

/-- **C19**, partial: after a release that reports success, the number and generation lead to no entry in use, provided
the generation is 0 or only one section had that number and generation. -/
theorem C19_released_unreachable_partial (c c' : Chain) (n g : Nat) (hw : ∀ s ∈ c, WellFormed s)
    (h : c.release n g = .ok (c', true))
    (hone : g = 0 ∨ ∀ newer s older e, c = newer ++ s :: older → Holds s e → e.num = n → e.gen = g →
      ∀ s' ∈ older, ∀ e', Holds s' e' → ¬ (e'.num = n ∧ e'.gen = g)) :
    ∀ e, c'.find n g = .ok e → e.inUse = false := by
  intro x hx
  induction c generalizing c' with
  | nil => injection h with h; injection h with h1 h2; exact nomatch h2
  | cons s rest ih =>
    have hwr := fun x hx => hw x (List.mem_cons_of_mem _ hx)
    have hws := hw s List.mem_cons_self
    rcases release_cases hws h with ⟨rest', hno, hr, rfl⟩ | ⟨e, l', he, hen, heg, -, rfl, hd, hl⟩ | ⟨e, -, -, -, hb, rfl⟩
    · rw [Chain.find] at hx
      rcases chain_cases s hws n g (Chain.find rest' n g) with ⟨y, hy, hn, hg, -⟩ | ⟨-, heq⟩
      · exact absurd ⟨hn, hg⟩ (hno y hy)
      · rw [heq] at hx
        refine ih rest' hwr hr ?_ hx
        rcases hone with h0 | hone
        · exact Or.inl h0
        · refine Or.inr (fun newer t older e hc => hone (s :: newer) t older e (by rw [hc]; rfl))
    · rw [Chain.find] at hx
      have h1 : Section.contains { s with entries := l' } n = true := by
        rw [Section.contains]; simp only [hl, if_pos]
      have h2 : Section.find { s with entries := l' } n = .ok ⟨n, 0, .free 0⟩ := by
        rw [Section.find]; simp only [hl, if_pos]
      rw [h1, h2] at hx
      simp only [Bool.not_true, Bool.false_eq_true, if_false, bind, Except.bind, pure, Except.pure] at hx
      rcases hone with h0 | hone
      · subst h0
        simp only [bne_self_eq_false, Bool.false_eq_true, if_false] at hx
        injection hx with hx; subst hx; rfl
      · by_cases hg0 : g = 0
        · subst hg0
          simp only [bne_self_eq_false, Bool.false_eq_true, if_false] at hx
          injection hx with hx; subst hx; rfl
        · rw [if_pos (by simp; omega)] at hx
          have hnone := hone [] s rest e rfl (Or.inl he) hen heg
          have := (C17_missing rest hwr n g).1.mpr hnone
          rw [this] at hx; exact nomatch hx
    · exact nomatch hb

/-- **C19**, success: releasing an entry that its section holds itself, and that no newer section shadows, succeeds. -/
theorem C19_release_succeeds (newer : Chain) (s : Section) (older : Chain) (e : XEntry)
    (hw : ∀ t ∈ newer ++ s :: older, WellFormed t) (he : e ∈ s.entries)
    (hnew : ∀ t ∈ newer, ∀ e', Holds t e' → ¬ (e'.num = e.num ∧ e'.gen = e.gen)) :
    ∃ c', Chain.release (newer ++ s :: older) e.num e.gen = .ok (c', true) := by
  induction newer with
  | nil =>
    have hws := hw s (by simp)
    have hf := find_of_mem hws.1 he
    obtain ⟨r1, r2, r3⟩ := remove_spec hws.1 e.num
    obtain ⟨l', e1, e2, e3⟩ := add_spec r1 ⟨e.num, 0, .free 0⟩
    have hfind : s.find e.num = .ok e := (section_find_holds hws).mpr ⟨Or.inl he, rfl⟩
    have hcont : s.contains e.num = true := (section_contains s _).mpr ⟨e, hfind⟩
    refine ⟨{ s with entries := l' } :: older, ?_⟩
    rw [List.nil_append, Chain.release]
    have hrem : s.remove e.num = ({ s with entries := (EntrySet.remove e.num s.entries).1 },
      (EntrySet.remove e.num s.entries).2) := rfl
    rw [hcont, hfind, hrem, r2, hf]
    simp only [Bool.not_true, Bool.false_eq_true, if_false, bind, Except.bind, bne_self_eq_false, Option.isSome_some,
      if_true, Section.add, e1, Bool.and_false, pure, Except.pure]
  | cons t newer ih =>
    obtain ⟨c', hc'⟩ := ih (fun x hx => hw x (List.mem_cons_of_mem _ hx))
      (fun x hx => hnew x (List.mem_cons_of_mem _ hx))
    refine ⟨t :: c', ?_⟩
    have hwt := hw t List.mem_cons_self
    have hno := hnew t List.mem_cons_self
    rw [List.cons_append, Chain.release, hc']
    by_cases hc : t.contains e.num = true
    · obtain ⟨x, hx⟩ := (section_contains t _).mp hc
      have hh := (section_find_holds hwt).mp hx
      have hg : x.gen ≠ e.gen := fun hg => hno x hh.1 ⟨hh.2, hg⟩
      rw [hc, hx]
      simp [hg, bind, Except.bind, pure, Except.pure]
    · simp [hc, bind, Except.bind, pure, Except.pure]

example : ∃ c', exampleChain.release 5 0 = .ok (c', true) ∧ c'.find 5 0 = .ok ⟨5, 0, .free 0⟩ ∧
    c'.find 5 1 = .ok ⟨5, 1, .used 900⟩ := ⟨_, rfl, rfl, rfl⟩

/-- **C19** fails when an older section has the same number and a generation other than 0: the released object comes
back with its old content. -/
theorem C19_older_revision_counterexample (n g : Nat) (o1 o2 : Int) (hg : g ≠ 0) :
    ∃ c', Chain.release [⟨.table, [⟨n, g, .used o1⟩], none⟩, ⟨.table, [⟨n, g, .used o2⟩], none⟩] n g = .ok (c', true) ∧
      c'.find n g = .ok ⟨n, g, .used o2⟩ := by
  refine ⟨[⟨.table, [⟨n, 0, .free 0⟩], none⟩, ⟨.table, [⟨n, g, .used o2⟩], none⟩], ?_, ?_⟩
  · simp [Chain.release, Section.contains, Section.find, EntrySet.find, Section.remove, EntrySet.remove, Section.add,
      EntrySet.add, EntrySet.insert, bind, Except.bind, pure, Except.pure]
  · simp [Chain.find, Section.contains, Section.find, EntrySet.find, bind, Except.bind, pure, Except.pure, Ne.symm hg]

/-- **C19** fails for an object found through the hybrid stream of a table: nothing is released. -/
theorem C19_hybrid_counterexample (n g : Nat) (o : Int) :
    let c : Chain := [⟨.table, [], some [⟨n, g, .used o⟩]⟩]
    c.release n g = .ok (c, false) ∧ c.find n g = .ok ⟨n, g, .used o⟩ := by
  constructor
  · simp [Chain.release, Section.contains, Section.find, EntrySet.find, Section.remove, EntrySet.remove,
      bind, Except.bind, pure, Except.pure]
  · simp [Chain.find, Section.contains, Section.find, EntrySet.find, bind, Except.bind, pure, Except.pure]

end VPdf
