import Verif.Lemmas.UnlistedStreams
/-
  C121: the sections of a file become the objects of the document, also when cross-reference streams do not list themselves.
-/
namespace VPdf
open Spec

/-- **C121**, the trailer: whatever the sections of a file are, when it is opened the first section of the chain, whose
trailer names the catalog and the encryption, is the newest section of the file. -/
theorem C121_newest (parse : Int → Res ParsedSection) (at_ : Int) (f : Nat) (c : List LiveSection)
    (h : openSections parse f at_ = .ok c) :
    ∃ x s l, parse at_ = .ok x ∧ c = s :: l ∧ s.kind ≠ .virtual ∧ s.origin = some at_ ∧ s.trailer = x.trailer := by
  unfold openSections at h
  cases h1 : readSections parse f [] at_ with
  | error e => rw [h1] at h; cases h
  | ok c1 =>
    rw [h1, ok_bind] at h
    cases h2 : readHybrids parse c1 with
    | error e => rw [h2] at h; cases h
    | ok c2 =>
      rw [h2, ok_bind] at h
      injection h with h
      subst h
      cases f with
      | zero => cases h1
      | succ f =>
        rw [readSections] at h1
        cases hp : placeSection parse [] at_ with
        | error e => rw [hp] at h1; cases h1
        | ok r =>
          obtain ⟨c0, s⟩ := r
          rw [hp, ok_bind] at h1
          dsimp only at h1
          obtain ⟨⟨t, t1, t2⟩, k1, k2, x, x1, x2⟩ := placeSection_marks hp
          obtain ⟨u, hu⟩ : ∃ u, c1.map LiveSection.mark = t ++ s.mark :: u := by
            split at h1
            · injection h1 with h1; subst h1; exact ⟨[], by simp [t1]⟩
            · obtain ⟨u, hu⟩ := readSections_marks h1
              exact ⟨u, by rw [hu]; simp [t1]⟩
          obtain ⟨v, hv⟩ := hybridSteps_marks _ h2
          rw [hu] at hv
          have same : ∀ y : LiveSection, y.mark = s.mark → y.kind ≠ .virtual ∧ y.origin = some at_ ∧ y.trailer = x.trailer :=
            fun y hy => ⟨by rw [show y.kind = s.kind from congrArg (·.1) hy]; exact k1,
              by rw [show y.origin = s.origin from congrArg (·.2.1) hy]; exact k2,
              by rw [show y.trailer = s.trailer from congrArg (·.2.2.1) hy]; exact x2⟩
          rcases t2 with rfl | ⟨y, rfl, hy⟩
          · cases c2 with
            | nil => simp at hv
            | cons a l =>
              simp only [List.nil_append, List.cons_append, List.map_cons, List.cons.injEq] at hv
              refine ⟨x, a, l, x1, ?_, same a hv.1⟩
              rw [moveVirtual, if_neg (same a hv.1).1]
          · match c2, hv with
            | [], hv => simp at hv
            | [a], hv => simp at hv
            | a :: b :: l, hv =>
              simp only [List.cons_append, List.nil_append, List.map_cons, List.cons.injEq] at hv
              refine ⟨x, b, l ++ [a], x1, ?_, same b hv.2.1⟩
              rw [moveVirtual, if_pos (by rw [← hy, ← hv.1]; rfl), List.cons_append]

/-- **C121**, partial: a file of any number of revisions - tables, tables with hybrid streams, cross-reference streams that
list themselves or not - is opened, and every request for an object is answered as the newest revision that lists it says.
Cross-reference streams that no section lists are found too.  Missing: files in which the number of a stream that does not
list itself is used for something else, see `C121_replaced_counterexample` and `C121_freed_counterexample`. -/
theorem C121_requests_partial (parse : Int → Res ParsedSection) (at_ : Int) (h : List Rev) (f : Nat)
    (hh : History parse at_ h) (ht : Truthful h) (hf : h.length ≤ f) :
    ∃ c, openSections parse f at_ = .ok c ∧ ∀ n g, Current h n g (requested c n g) := by
  obtain ⟨c1, h1, h2⟩ := sections_ok ht hh (fun r hr => hr) [] [] f hf (.nil 0)
  rw [List.nil_append] at h2
  obtain ⟨c2, g1, g2, g3⟩ := hybrids_ok ht (history_mem hh) c1.length 0 c1 h2 (by omega)
  rw [Nat.zero_add] at g2
  have hdrop : ∀ s ∈ c2.drop c1.length, s.kind = .virtual := by
    obtain ⟨t, t1, t2⟩ := g3
    intro s hs
    have : s.mark ∈ (c2.map LiveSection.mark).drop c1.length := by rw [← List.map_drop]; exact List.mem_map_of_mem hs
    rw [t1, List.drop_append_of_le_length (by simp), List.drop_of_length_le (by simp), List.nil_append] at this
    exact t2 _ this
  have hall := g2.finish hdrop (c1.length + c2.length) (by omega)
  have hopen : openSections parse f at_ = .ok (moveVirtual c2) := by
    unfold openSections readHybrids
    rw [h1, ok_bind, List.range_eq_range', g1, ok_bind]; rfl
  obtain ⟨k, hk, hlen⟩ : ∃ k, Lines h (Known (moveVirtual c2)) k (moveVirtual c2) h ∧ (moveVirtual c2).length ≤ k := by
    cases c2 with
    | nil => exact ⟨_, hall, by simp [moveVirtual]⟩
    | cons s c =>
      rw [moveVirtual]
      split
      · rename_i hv
        cases hall with
        | virt _ _ _ _ hv' l =>
          have l2 := l.append_virt hv'
          refine ⟨_, (l2.finish (fun x hx => ?_) (c1.length + (s :: c).length) (by omega)).mono
            (fun n g ⟨x, hx, he⟩ => ⟨x, by simp at hx ⊢; exact hx.symm, he⟩), by simp⟩
          rw [List.drop_append, List.drop_of_length_le (by simp only [List.length_cons]; omega), List.nil_append] at hx
          have := List.mem_of_mem_drop hx
          simp at this; subst this; exact hv
        | real _ _ r _ _ _ m _ => rw [m.kind] at hv; split at hv <;> cases hv
      · exact ⟨_, hall, by omega⟩
  refine ⟨_, hopen, fun n g => ?_⟩
  generalize moveVirtual c2 = c at hk hlen
  unfold requested
  cases he : liveEntry c n g with
  | none =>
    have hn := liveEntry_none.mp he
    refine .missing (fun r hr => (hk.covers hlen r hr n g hn).1) fun r hr q hq hu => ?_
    have := (hk.covers hlen r hr n g hn).2 q hq hu
    rw [known_iff, he] at this
    cases this
  | some e =>
    rcases hk.found hlen he with ⟨r, q, hr, hq, hu, rfl⟩ | ⟨hs, ho⟩
    · dsimp only [Option.getD]
      cases hl : h.findSome? (fun r => r.lists n g) with
      | none => exact .unlisted r q (fun r hr => List.findSome?_eq_none_iff.mp hl r hr) hr hq hu
      | some k =>
        obtain ⟨r', hr', hk'⟩ := List.exists_of_findSome?_eq_some hl
        have := (ht.alone r hr q hq n g hu).1 r' hr' k hk'
        have cur := Current.listed (h := h) (n := n) (g := g) k hl
        rw [this] at cur
        exact cur
    · have cur := Current.listed (h := h) (n := n) (g := g) _ hs
      dsimp only
      cases hkind : e.entry.kind with
      | free next => rw [hkind] at cur; dsimp only; exact cur
      | compressed s i => rw [hkind] at cur; dsimp only; exact cur
      | used off =>
        rw [hkind] at cur ho
        dsimp only
        cases hob : e.object with
        | none => exact cur
        | some a => have := ho a hob; injection this with this; subst this; exact cur

/-- **C121** is false of numbers that are used again: a newer table says that the object is at `off`, but the request gives
the old cross-reference stream with the same number, because that stream did not list itself. -/
theorem C121_replaced_counterexample (parse : Int → Res ParsedSection) (a b off : Int) (x y : ParsedSection) (n g : Nat)
    (hx : parse a = .ok x) (hxo : x.own = none) (hxs : x.stm = none) (hxp : x.prev = some b)
    (hxl : lastEntry n x.rows = some ⟨n, g, .used off⟩)
    (hy : parse b = .ok y) (hyp : y.prev = none) (hu : Unlisted (b, y) n g) :
    ∃ c, openSections parse 2 a = .ok c ∧ requested c n g = .object b := by
  have hf := table_find x.rows n
  rw [hxl] at hf
  have hyo : y.own = some (n, g) := hu.1
  have hany := (unlisted_iff (at_ := b) hyo).mp hu
  generalize hT : x.rows.foldl (fun l e => liveAdd l ⟨e, none⟩) [] = T at hf
  have h1 : readSections parse 2 [] a = .ok ([(⟨.table, some a, x.trailer, x.prev, x.stm, T, []⟩ : LiveSection).setObject n b] ++
      [⟨.stream, some b, y.trailer, y.prev, y.stm, streamEntries (n, g) b y.rows, []⟩]) := by
    rw [readSections, placeSection, hx, ok_bind, hxo]
    dsimp only
    rw [hT, ok_bind]
    dsimp only
    rw [hxp]
    dsimp only
    rw [readSections, placeSection, hy, ok_bind, hyo]
    dsimp only
    rw [placeStream, hany]
    simp [liveEntry, LiveSection.get, hf, setReference, Except.map, bind, Except.bind, hyp]
  refine ⟨[⟨.table, some a, x.trailer, x.prev, x.stm, liveBind n b T, []⟩,
    ⟨.stream, some b, y.trailer, y.prev, y.stm, streamEntries (n, g) b y.rows, []⟩], ?_, ?_⟩
  · rw [openSections, h1, ok_bind, readHybrids]
    simp [List.range_succ, hybridStep, LiveSection.setObject, hf, hxs, bind, Except.bind, pure, Except.pure, moveVirtual]
  · simp [requested, liveEntry, LiveSection.get, liveFind_bind, hf]

/-- **C121** is false of numbers that were freed: a file whose newest table says that the number of an older cross-reference
stream is free, or that the object is in an object stream, cannot be opened with its sections, because that stream did not
list itself. -/
theorem C121_freed_counterexample (parse : Int → Res ParsedSection) (a b : Int) (x y : ParsedSection) (n g : Nat) (k : EntryKind)
    (f : Nat) (hx : parse a = .ok x) (hxo : x.own = none) (hxp : x.prev = some b)
    (hxl : lastEntry n x.rows = some ⟨n, g, k⟩) (hk : ∀ off, k ≠ .used off)
    (hy : parse b = .ok y) (hu : Unlisted (b, y) n g) :
    openSections parse (f + 2) a = .error .throw := by
  have hf := table_find x.rows n
  rw [hxl] at hf
  have hyo : y.own = some (n, g) := hu.1
  have hany := (unlisted_iff (at_ := b) hyo).mp hu
  generalize hT : x.rows.foldl (fun l e => liveAdd l ⟨e, none⟩) [] = T at hf
  rw [openSections, readSections, placeSection, hx, ok_bind, hxo]
  dsimp only
  rw [hT, ok_bind]
  dsimp only
  rw [hxp]
  dsimp only
  rw [readSections, placeSection, hy, ok_bind, hyo]
  dsimp only
  rw [placeStream, hany]
  cases k with
  | used off => exact absurd rfl (hk off)
  | free next => simp [liveEntry, LiveSection.get, hf, setReference, Except.map, bind, Except.bind]
  | compressed s i => simp [liveEntry, LiveSection.get, hf, setReference, Except.map, bind, Except.bind]

/-- **C121** is false of circular chains: when every table of a set of offsets names another one of the set as the one before,
the file is never opened, whatever bound is given to the number of sections: the chain of sections grows without end. -/
theorem C121_circular_counterexample (parse : Int → Res ParsedSection) (S : Int → Prop)
    (hS : ∀ a, S a → ∃ x p, parse a = .ok x ∧ x.own = none ∧ x.prev = some p ∧ S p) (a : Int) (ha : S a) (f : Nat) :
    openSections parse f a = .error .timeout := by
  have key : ∀ (f : Nat) (c : List LiveSection) (a : Int), S a → readSections parse f c a = .error .timeout := by
    intro f
    induction f with
    | zero => intro c a _; rfl
    | succ f ih =>
      intro c a ha
      obtain ⟨x, p, hx, ho, hp, hs⟩ := hS a ha
      rw [readSections, placeSection, hx, ok_bind, ho]
      dsimp only
      rw [ok_bind]
      dsimp only
      rw [hp]
      exact ih _ p hs
  rw [openSections, key f [] a ha]
  rfl

example (f : Nat) : openSections (fun _ => .ok ⟨none, [⟨1, 0, .used 15⟩], some 100, none, []⟩) f 100 = .error .timeout :=
  C121_circular_counterexample _ (· = 100) (by simp) 100 rfl f

/-! ### Examples -/

/-- A file of three revisions: a cross-reference stream, object 5, that does not list itself; a table with a hybrid stream,
object 7, that lists itself; and a table that frees object 2. -/
def threeSections : Int → Res ParsedSection
  | 900 => .ok ⟨none, [⟨2, 1, .free 0⟩], some 600, none, []⟩
  | 600 => .ok ⟨none, [⟨1, 0, .used 400⟩], some 100, some 500, []⟩
  | 500 => .ok ⟨some (7, 0), [⟨6, 0, .compressed 1 0⟩, ⟨7, 0, .used 500⟩], none, none, []⟩
  | 100 => .ok ⟨some (5, 0), [⟨1, 0, .used 15⟩, ⟨2, 0, .used 50⟩], none, none, []⟩
  | _ => .error .throw

/-- Its revisions. -/
def threeRevisions : List Rev :=
  [⟨900, ⟨none, [⟨2, 1, .free 0⟩], some 600, none, []⟩, none⟩,
   ⟨600, ⟨none, [⟨1, 0, .used 400⟩], some 100, some 500, []⟩,
    some (500, ⟨some (7, 0), [⟨6, 0, .compressed 1 0⟩, ⟨7, 0, .used 500⟩], none, none, []⟩)⟩,
   ⟨100, ⟨some (5, 0), [⟨1, 0, .used 15⟩, ⟨2, 0, .used 50⟩], none, none, []⟩, none⟩]

/-- What is asked for in the file of three revisions. -/
def threeAnswers (n g : Nat) : Option FoundAs :=
  match openSections threeSections 3 900 with
  | .ok c => some (requested c n g)
  | .error _ => none

example : History threeSections 900 threeRevisions :=
  .more ⟨900, _, none⟩ 600 _ rfl (.inr rfl) rfl (.more ⟨600, _, some _⟩ 100 _ rfl ⟨rfl, rfl, rfl, by simp⟩ rfl
    (.last ⟨100, _, none⟩ rfl (.inl (by simp)) rfl))

example : Truthful threeRevisions := by
  constructor
  · simp [threeRevisions, Rev.streams]
  · intro r hr q hq n g hu
    simp only [threeRevisions, List.mem_cons, List.not_mem_nil, or_false] at hr
    have hq5 : q.1 = 100 ∧ n = 5 ∧ g = 0 := by
      rcases hr with rfl | rfl | rfl <;> simp [Rev.streams] at hq
      · subst hq; simp [Unlisted] at hu
      · rcases hq with rfl | rfl
        · simp [Unlisted] at hu
        · simp [Unlisted] at hu; omega
      · subst hq; simp [Unlisted] at hu; omega
    obtain ⟨h1, rfl, rfl⟩ := hq5
    rw [h1]
    constructor
    · intro r hr k hk
      simp only [threeRevisions, List.mem_cons, List.not_mem_nil, or_false] at hr
      rcases hr with rfl | rfl | rfl <;> simp [Rev.lists, Rev.entry, lastEntry] at hk
    · intro r hr p hp hu
      simp only [threeRevisions, List.mem_cons, List.not_mem_nil, or_false] at hr
      rcases hr with rfl | rfl | rfl <;> simp [Rev.streams] at hp
      · subst hp; simp [Unlisted] at hu
      · rcases hp with rfl | rfl <;> simp [Unlisted] at hu
      · subst hp; rfl

/-- A file whose stream, object 5, does not list itself and whose number is used again by a newer table. -/
def reusedNumber (k : EntryKind) : Int → Res ParsedSection
  | 900 => .ok ⟨none, [⟨5, 0, k⟩], some 100, none, []⟩
  | 100 => .ok ⟨some (5, 0), [⟨1, 0, .used 15⟩], none, none, []⟩
  | _ => .error .throw

example : ∃ c, openSections (reusedNumber (.used 700)) 2 900 = .ok c ∧ requested c 5 0 = .object 100 :=
  C121_replaced_counterexample _ 900 100 700 _ _ 5 0 rfl rfl rfl rfl rfl rfl rfl ⟨rfl, by simp⟩

example : openSections (reusedNumber (.free 0)) 2 900 = .error .throw :=
  C121_freed_counterexample _ 900 100 _ _ 5 0 (.free 0) 0 rfl rfl rfl rfl (by simp) rfl ⟨rfl, by simp⟩

example : threeAnswers 1 0 = some (.object 400) ∧ threeAnswers 5 0 = some (.object 100) ∧ threeAnswers 6 0 = some (.packed 1 0) ∧
    threeAnswers 7 0 = some (.object 500) ∧ threeAnswers 2 1 = some .free ∧ threeAnswers 3 0 = some .missing := by
  decide +kernel

end VPdf
