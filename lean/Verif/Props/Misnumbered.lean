import Verif.Lemmas.Misnumbered
/-
  C127: objects that stand under another number than the cross-references say.
-/
namespace VPdf
open Spec Misnumbered

namespace Misnumbered

theorem opened_tidy {file : ObjectsAt} {revs : List (List ListedLine)} (hr : ∀ r ∈ revs, OnlyMixedUp file r) :
    List.Forall₂ (Settled file) revs (justOpened revs) := by
  unfold justOpened
  induction revs with
  | nil => exact .nil
  | cons r revs ih =>
    have h1 := hr r (by simp)
    refine .cons ?_ (ih fun r' hr' => hr r' (by simp [hr']))
    refine ⟨⟨?_, ?_⟩, ?_, ?_, ?_⟩
    · rw [List.map_map]
      rfl
    · intro e he
      obtain ⟨l, _, rfl⟩ := List.mem_map.mp he
      exact ⟨fun _ => rfl, by simp⟩
    · intro e he
      obtain ⟨l, _, rfl⟩ := List.mem_map.mp he
      rfl
    · rw [List.map_map]
      exact h1.once
    · intro n g
      rw [← h1.same n g]
      constructor
      · rintro ⟨e, he, ha⟩
        obtain ⟨l, hl, rfl⟩ := List.mem_map.mp he
        exact ⟨l, hl, ha⟩
      · rintro ⟨l, hl, ha⟩
        exact ⟨_, List.mem_map.mpr ⟨l, hl, rfl⟩, ha⟩

theorem askObjects_true {file : ObjectsAt} {revs : List (List ListedLine)} (hr : ∀ r ∈ revs, OnlyMixedUp file r)
    (reqs : List (Nat × Nat)) : ∀ {ch : List FileSection}, List.Forall₂ (Settled file) revs ch →
    (askObjects file ch reqs).2 = reqs.map fun q => .ok (trueObject file revs q.1 q.2) := by
  induction reqs with
  | nil => intro ch _; rfl
  | cons q rest ih =>
    intro ch h
    obtain ⟨h1, h2⟩ := askObject_true h hr q.1 q.2
    simp [askObjects, h2, ih h1]

end Misnumbered

/-- C127, for files whose lines are only in disorder: whatever is asked for, in any order and any number of times, every request is
answered with the object that carries the numbers itself, of the newest revision that has it, or with null if there is none.
Partial: the lines of a revision must be readable and list the numbers its objects have. -/
theorem C127_recovered_partial (file : ObjectsAt) (revs : List (List ListedLine)) (hr : ∀ r ∈ revs, OnlyMixedUp file r)
    (reqs : List (Nat × Nat)) :
    (askObjects file (justOpened revs) reqs).2 = reqs.map fun q => .ok (trueObject file revs q.1 q.2) :=
  askObjects_true hr reqs (opened_tidy hr)

/-- C127, for every file and every history: an object that is returned carries the numbers that were asked for, and stands
at a position the cross-references list. -/
theorem C127_never_another (file : ObjectsAt) (revs : List (List ListedLine)) (reqs : List (Nat × Nat)) (n g : Nat) (o : Obj)
    (h : (askObject file (askObjects file (justOpened revs) reqs).1 n g).2 = .ok (some o)) :
    ∃ r ∈ revs, ∃ l ∈ r, l.leadsTo file = some (n, g, some o) := by
  let P : FileEntry → Prop := fun e => Sure file e ∧ ∃ r ∈ revs, ∃ l ∈ r, l.off = e.off
  have hl : ∀ e e', P e → e.load file = some e' → P e' := by
    intro e e' he hload
    obtain ⟨h1, h2⟩ := load_sure he.1 hload
    exact ⟨h1, by rw [h2]; exact he.2⟩
  have hk : ∀ e k, P e → P { e with key := k } := fun e k he => he
  have h0 : ∀ s ∈ justOpened revs, ∀ e ∈ s, P e := by
    intro s hs e he
    obtain ⟨r, hr, rfl⟩ := List.mem_map.mp hs
    obtain ⟨l, hl, rfl⟩ := List.mem_map.mp he
    exact ⟨⟨fun _ => rfl, by simp⟩, r, hr, l, hl, rfl⟩
  have hch := askObjects_all hl hk reqs h0
  generalize (askObjects file (justOpened revs) reqs).1 = ch at h hch
  have hfin : ∀ e : FileEntry, P e → e.num = n → e.gen = g → e.obj = some o →
      ∃ r ∈ revs, ∃ l ∈ r, l.leadsTo file = some (n, g, some o) := by
    rintro e ⟨⟨ha, hb⟩, r, hr, l, hl, hoff⟩ rfl rfl ho
    refine ⟨r, hr, l, hl, ?_⟩
    have hface := hb o ho
    cases heo : e.off with
    | none => rw [ha heo] at ho; simp at ho
    | some off =>
      rw [heo] at hoff
      simpa [faceOf, ListedLine.leadsTo, heo, hoff] using hface
  unfold askObject at h
  split at h
  · simp at h
  · rename_i e hloc
    obtain ⟨⟨s, hs, hes⟩, _⟩ := locateEntry_mem hloc
    split at h
    · simp at h
    · simp at h
    · rename_i e' _ hload
      have he' := hl e e' (hch s hs e hes) hload
      have h1 := putBack_all (n := n) (g := g) he' hch
      dsimp only at h
      split at h
      · rename_i hng
        exact hfin e' he' hng.1 hng.2 (by simpa using h)
      · split at h
        · have h2 := recover_all hl hk h1
          simp only [askAgain] at h
          split at h
          · simp at h
          · rename_i x hx
            obtain ⟨⟨s', hs', hxs⟩, hxn, hxg⟩ := locateEntry_mem hx
            have hPx := h2 s' hs' x hxs
            split at h
            · simp at h
            · simp at h
            · rename_i off x' hoff hxl
              have hPx' := hl x x' hPx hxl
              simp only [Except.ok.injEq] at h
              by_cases hxo : x.obj = none
              · -- all entries have been loaded
                exfalso
                exact recover_loaded (by assumption) s' hs' x hxs (by simp [hoff]) hxo
              · obtain ⟨ox, hox⟩ := Option.ne_none_iff_exists'.mp hxo
                have : x' = x := by
                  rcases x with ⟨k, n1, g1, off1, obj1⟩
                  simp only at hox
                  subst hox
                  simpa [FileEntry.load] using hxl.symm
                subst this
                exact hfin x' hPx' hxn hxg h
        · simp at h

namespace Misnumbered

/-- The entry that was put back is found. -/
theorem locateEntry_putBack {ch : List FileSection} {n g : Nat} {e e' : FileEntry} (h : locateEntry ch n g = some e)
    (hk : e'.key = e.key) (hn : e'.num = n) (hg : e'.gen = g) : locateEntry (putBack e' ch n g) n g = some e' := by
  induction ch with
  | nil => simp [locateEntry] at h
  | cons s rest ih =>
    simp only [locateEntry] at h
    split at h
    · rename_i x hx
      split at h
      · rename_i hxg
        simp only [Option.some.injEq] at h
        subst h
        have hput : putBack e' (s :: rest) n g = s.map (fun y => if FileEntry.answersTo n y then e' else y) :: rest := by
          simp [putBack, hx, hxg]
        have hans : FileEntry.answersTo n e' = true := by
          have := List.find?_some hx
          simp only [FileEntry.answersTo, Bool.and_eq_true, beq_iff_eq] at this ⊢
          exact ⟨hk.trans this.1, hn⟩
        have hfind : (s.map fun y => if FileEntry.answersTo n y then e' else y).find? (FileEntry.answersTo n) = some e' := by
          clear hput ih
          induction s with
          | nil => simp at hx
          | cons y ys ihy =>
            cases hy : FileEntry.answersTo n y with
            | true => simp [hy, hans]
            | false =>
              simp only [List.find?_cons, hy] at hx
              simpa [hy] using ihy hx
        rw [hput]
        simp [locateEntry, hfind, hg]
      · rename_i hxg
        have hput : putBack e' (s :: rest) n g = s :: putBack e' rest n g := by simp [putBack, hx, hxg]
        rw [hput]
        simpa [locateEntry, hx, hxg] using ih h
    · rename_i hx
      have hput : putBack e' (s :: rest) n g = s :: putBack e' rest n g := by simp [putBack, hx]
      rw [hput]
      simpa [locateEntry, hx] using ih h

/-- A loaded entry that is found is the answer. -/
theorem askObject_loaded {file : ObjectsAt} {ch : List FileSection} {n g : Nat} {x : FileEntry} {o : Obj}
    (h : locateEntry ch n g = some x) (hoff : x.off ≠ none) (ho : x.obj = some o) : (askObject file ch n g).2 = .ok (some o) := by
  obtain ⟨_, hn, hg⟩ := locateEntry_mem h
  obtain ⟨off, hoff⟩ := Option.ne_none_iff_exists'.mp hoff
  have hl : x.load file = some x := by simp [FileEntry.load, ho]
  simp [askObject, h, hoff, hl, hn, hg, ho]

theorem load_facts {file : ObjectsAt} {e e' : FileEntry} (h : e.load file = some e') :
    e'.key = e.key ∧ e'.off = e.off ∧ (e.obj ≠ none → e' = e) := by
  rcases e with ⟨k, n1, g1, off1, obj1⟩
  cases obj1 with
  | some _ =>
    simp only [FileEntry.load, Option.some.injEq] at h
    subst h
    exact ⟨rfl, rfl, fun _ => rfl⟩
  | none =>
    cases off1 with
    | none =>
      simp only [FileEntry.load, Option.some.injEq] at h
      subst h
      exact ⟨rfl, rfl, fun _ => rfl⟩
    | some off1 =>
      simp only [FileEntry.load] at h
      split at h
      · simp at h
      · simp only [Option.some.injEq] at h
        subst h
        exact ⟨rfl, rfl, fun hc => absurd rfl hc⟩

end Misnumbered

/-- C127, for every file and whatever was asked before: a request that gave an object gives it again. -/
theorem C127_again (file : ObjectsAt) (revs : List (List ListedLine)) (reqs : List (Nat × Nat)) (n g : Nat) (o : Obj)
    (h : (askObject file (askObjects file (justOpened revs) reqs).1 n g).2 = .ok (some o)) :
    (askObject file (askObject file (askObjects file (justOpened revs) reqs).1 n g).1 n g).2 = .ok (some o) := by
  generalize (askObjects file (justOpened revs) reqs).1 = ch at h
  cases hloc : locateEntry ch n g with
  | none => simp [askObject, hloc] at h
  | some e =>
    cases hoff : e.off with
    | none => simp [askObject, hloc, hoff] at h
    | some off =>
      cases hload : e.load file with
      | none => simp [askObject, hloc, hoff, hload] at h
      | some e' =>
        obtain ⟨hkey, hoff', _⟩ := load_facts hload
        by_cases hm : e'.num = n ∧ e'.gen = g
        · have hstep : askObject file ch n g = (putBack e' ch n g, .ok e'.obj) := by
            simp only [askObject, hloc, hoff, hload, hm, and_self, if_true]
          rw [hstep] at h ⊢
          exact askObject_loaded (locateEntry_putBack hloc hkey hm.1 hm.2) (by simp [hoff', hoff]) (by simpa using h)
        · cases hrec : (recover file (putBack e' ch n g)).2 with
          | false => simp [askObject, hloc, hoff, hload, hm, hrec] at h
          | true =>
            have hstep : askObject file ch n g =
                ((recover file (putBack e' ch n g)).1, askAgain file (recover file (putBack e' ch n g)).1 n g) := by
              simp only [askObject, hloc, hoff, hload, hm, if_false, hrec, if_true]
            rw [hstep] at h ⊢
            have hall := recover_loaded hrec
            simp only at h ⊢
            generalize (recover file (putBack e' ch n g)).1 = ch2 at h hall
            cases hx : locateEntry ch2 n g with
            | none => simp [askAgain, hx] at h
            | some x =>
              obtain ⟨⟨s, hs, hxs⟩, _⟩ := locateEntry_mem hx
              cases hxo : x.off with
              | none => simp [askAgain, hx, hxo] at h
              | some xoff =>
                have hob := hall s hs x hxs (by simp [hxo])
                cases hxl : x.load file with
                | none => simp [askAgain, hx, hxo, hxl] at h
                | some x' =>
                  have := (load_facts hxl).2.2 hob
                  subst this
                  simp only [askAgain, hx, hxo, hxl, Except.ok.injEq] at h
                  exact askObject_loaded hx (by simp [hxo]) h

/-- C127 fails when two lines lead to objects with the same numbers: in a file whose newer section lists an object under a wrong
number, the object of the older section is returned, until somebody asks for the wrong number; that request is an error, and from
then on the other object is returned. -/
theorem C127_changed_counterexample (file : ObjectsAt) (i j a b : Nat) (x y : Obj) (hij : i ≠ j)
    (ha : file a = some (i, 0, x)) (hb : file b = some (i, 0, y)) :
    (askObjects file (justOpened [[⟨j, 0, some b⟩], [⟨i, 0, some a⟩]]) [(i, 0), (j, 0), (i, 0)]).2 =
      [.ok (some x), .error .missing, .ok (some y)] := by
  simp [askObjects, askObject, justOpened, locateEntry, List.find?, FileEntry.answersTo, FileEntry.load, ha, hb, putBack, recover,
    loadEach, rebuild, addEntry, askAgain, beq_false_of_ne hij, beq_false_of_ne hij.symm, hij]

/-- C127 fails when the lines list other numbers than the objects have (for instance all shifted by one: `j = i + 1`, `m = j + 1`):
an object that is not listed is null, until another object has been asked for; from then on it is returned. -/
theorem C127_order_counterexample (file : ObjectsAt) (i j m a b : Nat) (x y : Obj) (hij : i ≠ j) (him : i ≠ m) (hjm : j ≠ m)
    (ha : file a = some (j, 0, x)) (hb : file b = some (m, 0, y)) :
    (askObjects file (justOpened [[⟨i, 0, some a⟩, ⟨j, 0, some b⟩]]) [(m, 0), (j, 0), (m, 0)]).2 =
      [.ok none, .ok (some x), .ok (some y)] ∧
    trueObject file [[⟨i, 0, some a⟩, ⟨j, 0, some b⟩]] m 0 = some y := by
  constructor
  · simp [askObjects, askObject, justOpened, locateEntry, List.find?, FileEntry.answersTo, FileEntry.load, ha, hb, putBack, recover,
      loadEach, rebuild, addEntry, askAgain, beq_false_of_ne hij, beq_false_of_ne him, beq_false_of_ne hjm,
      hjm.symm, hjm, hij]
  · simp [trueObject, inRevision, ListedLine.leadsTo, ha, hb, hjm]

/-- C127 fails when one of the lines cannot be read: the first request is an error although the object is in the file, and leaves
entries behind that are not found any more: from then on the object is null. -/
theorem C127_lost_counterexample (file : ObjectsAt) (i j m a b c : Nat) (x y : Obj) (hij : i ≠ j) (him : i ≠ m) (hjm : j ≠ m)
    (ha : file a = some (j, 0, x)) (hb : file b = some (i, 0, y)) (hc : file c = none) :
    (askObjects file (justOpened [[⟨i, 0, some a⟩, ⟨j, 0, some b⟩, ⟨m, 0, some c⟩]])
      [(i, 0), (i, 0), (j, 0)]).2 = [.error .throw, .ok none, .ok none] ∧
    trueObject file [[⟨i, 0, some a⟩, ⟨j, 0, some b⟩, ⟨m, 0, some c⟩]] i 0 = some y := by
  constructor
  · simp [askObjects, askObject, justOpened, locateEntry, List.find?, FileEntry.answersTo, FileEntry.load, ha, hb, hc, putBack, recover,
      loadEach, beq_false_of_ne hij, beq_false_of_ne hij.symm, beq_false_of_ne him.symm, beq_false_of_ne hjm.symm, hij.symm, him.symm]
  · simp [trueObject, inRevision, ListedLine.leadsTo, ha, hb, hij.symm]

/-- A file in which the lines of two objects are exchanged in the newer revision. -/
def sampleMisplaced : ObjectsAt
  | 10 => some (2, 0, .int 20)
  | 20 => some (1, 0, .int 10)
  | 30 => some (1, 0, .int 5)
  | _ => none

/-- The lines of the two revisions. -/
def sampleMisplacedLines : List (List ListedLine) :=
  [[⟨0, 65535, none⟩, ⟨1, 0, some 10⟩, ⟨2, 0, some 20⟩], [⟨1, 0, some 30⟩]]

/-- Non-vacuity: the revisions are only mixed up, and the objects are found. -/
example : (∀ r ∈ sampleMisplacedLines, OnlyMixedUp sampleMisplaced r) ∧
    trueObject sampleMisplaced sampleMisplacedLines 1 0 = some (.int 10) ∧
    trueObject sampleMisplaced sampleMisplacedLines 0 65535 = none ∧
    (askObjects sampleMisplaced (justOpened sampleMisplacedLines) [(1, 0), (2, 0), (1, 0), (7, 0)]).2 =
      [.ok (some (.int 10)), .ok (some (.int 20)), .ok (some (.int 10)), .ok none] := by
  have hr : ∀ r ∈ sampleMisplacedLines, OnlyMixedUp sampleMisplaced r := by
    intro r hr
    simp only [sampleMisplacedLines, List.mem_cons, List.not_mem_nil, or_false] at hr
    rcases hr with rfl | rfl
    · refine ⟨?_, ?_, ?_, ?_⟩
      · intro l hl
        simp only [List.mem_cons, List.not_mem_nil, or_false] at hl
        rcases hl with rfl | rfl | rfl <;> rfl
      · simp
      · simp [ListedLine.leadsTo, sampleMisplaced]
      · intro n g
        simp only [List.mem_cons, List.not_mem_nil, or_false, exists_eq_or_imp, exists_eq_left, ListedLine.leadsTo, sampleMisplaced,
          Option.map_some, Option.some.injEq, Prod.mk.injEq, exists_and_left, exists_eq', and_true]
        grind
    · refine ⟨?_, ?_, ?_, ?_⟩
      · intro l hl
        simp only [List.mem_cons, List.not_mem_nil, or_false] at hl
        subst hl
        rfl
      · simp
      · simp
      · intro n g
        simp only [List.mem_cons, List.not_mem_nil, or_false, exists_eq_left, ListedLine.leadsTo, sampleMisplaced,
          Option.map_some, Option.some.injEq, Prod.mk.injEq, exists_and_left, exists_eq', and_true]
  refine ⟨hr, by rfl, by rfl, ?_⟩
  rw [C127_recovered_partial _ _ hr]
  rfl

end VPdf
