import Verif.Spec.Misnumbered
import Mathlib.Data.List.Nodup
import Mathlib.Data.List.Forall2
/-
  Lemmas about files with misplaced numbers.
-/
namespace VPdf
open Spec

namespace Misnumbered

/-- What the line of an entry leads to. -/
def faceOf (file : ObjectsAt) (e : FileEntry) : Option (Nat × Nat × Option Obj) :=
  ListedLine.leadsTo file ⟨e.num, e.gen, e.off⟩

/-- A loaded entry has the numbers and the object that stand in the file. -/
def Sure (file : ObjectsAt) (e : FileEntry) : Prop :=
  (e.off = none → e.obj = none) ∧ ∀ o, e.obj = some o → faceOf file e = some (e.num, e.gen, some o)

theorem load_sure {file : ObjectsAt} {e e' : FileEntry} (h : Sure file e) (hl : e.load file = some e') :
    Sure file e' ∧ e'.off = e.off := by
  rcases e with ⟨k, n, g, off, obj⟩
  cases obj with
  | some o => simp only [FileEntry.load, Option.some.injEq] at hl; subst hl; exact ⟨h, rfl⟩
  | none =>
    cases off with
    | none => simp only [FileEntry.load, Option.some.injEq] at hl; subst hl; exact ⟨h, rfl⟩
    | some off =>
      cases hf : file off with
      | none => simp [FileEntry.load, hf] at hl
      | some x =>
        rcases x with ⟨n', g', o⟩
        simp only [FileEntry.load, hf, Option.some.injEq] at hl
        subst hl
        refine ⟨⟨by simp, ?_⟩, rfl⟩
        intro o' ho
        simp only [Option.some.injEq] at ho
        subst ho
        simp [faceOf, ListedLine.leadsTo, hf]

theorem load_face {file : ObjectsAt} {e : FileEntry} {n g : Nat} {o : Option Obj} (h : Sure file e)
    (hf : faceOf file e = some (n, g, o)) : e.load file = some { e with num := n, gen := g, obj := o } := by
  rcases e with ⟨k, en, eg, off, obj⟩
  cases obj with
  | some o' =>
    have := h.2 o' rfl
    rw [hf] at this
    simp only [Option.some.injEq, Prod.mk.injEq] at this
    obtain ⟨rfl, rfl, rfl⟩ := this
    rfl
  | none =>
    cases off with
    | none =>
      simp only [faceOf, ListedLine.leadsTo, Option.some.injEq, Prod.mk.injEq] at hf
      obtain ⟨rfl, rfl, rfl⟩ := hf
      rfl
    | some off =>
      simp only [faceOf, ListedLine.leadsTo, Option.map_eq_some_iff] at hf
      obtain ⟨⟨n', g', o'⟩, hx, he⟩ := hf
      simp only [Prod.mk.injEq] at he
      obtain ⟨rfl, rfl, rfl⟩ := he
      simp [FileEntry.load, hx]

theorem face_same {file : ObjectsAt} {e : FileEntry} {n g k : Nat} {o : Option Obj}
    (hf : faceOf file e = some (n, g, o)) :
    faceOf file { e with key := k, num := n, gen := g, obj := o } = some (n, g, o) := by
  rcases e with ⟨k', en, eg, off, obj⟩
  cases off with
  | none =>
    simp only [faceOf, ListedLine.leadsTo, Option.some.injEq, Prod.mk.injEq] at hf ⊢
    exact ⟨trivial, trivial, hf.2.2⟩
  | some off => simpa [faceOf, ListedLine.leadsTo] using hf

theorem sure_after {file : ObjectsAt} {e : FileEntry} {n g k : Nat} {o : Option Obj}
    (hf : faceOf file e = some (n, g, o)) :
    Sure file { e with key := k, num := n, gen := g, obj := o } := by
  have hs := face_same (k := k) hf
  refine ⟨?_, ?_⟩
  · intro hn
    rcases e with ⟨k', en, eg, off, obj⟩
    simp only at hn
    subst hn
    simp only [faceOf, ListedLine.leadsTo, Option.some.injEq, Prod.mk.injEq] at hf
    exact hf.2.2.symm
  · intro o' ho
    simp only at ho
    subst ho
    exact hs

/-! ### Properties of single entries that are kept -/

theorem locateEntry_mem {ch : List FileSection} {n g : Nat} {e : FileEntry} (h : locateEntry ch n g = some e) :
    (∃ s ∈ ch, e ∈ s) ∧ e.num = n ∧ e.gen = g := by
  induction ch with
  | nil => simp [locateEntry] at h
  | cons s rest ih =>
    simp only [locateEntry] at h
    split at h
    · rename_i x hx
      split at h
      · rename_i hg
        simp only [Option.some.injEq] at h
        subst h
        have := List.find?_some hx
        simp only [FileEntry.answersTo, Bool.and_eq_true, beq_iff_eq] at this
        exact ⟨⟨s, by simp, List.mem_of_find?_eq_some hx⟩, this.2, hg⟩
      · obtain ⟨⟨s', hs', he⟩, h2⟩ := ih h
        exact ⟨⟨s', by simp [hs'], he⟩, h2⟩
    · obtain ⟨⟨s', hs', he⟩, h2⟩ := ih h
      exact ⟨⟨s', by simp [hs'], he⟩, h2⟩

theorem putBack_all {P : FileEntry → Prop} {e' : FileEntry} (he : P e') {ch : List FileSection} {n g : Nat}
    (h : ∀ s ∈ ch, ∀ e ∈ s, P e) : ∀ s ∈ putBack e' ch n g, ∀ e ∈ s, P e := by
  induction ch with
  | nil => simp [putBack]
  | cons s rest ih =>
    have ih' := ih (fun s' hs' => h s' (by simp [hs']))
    have hs := h s (by simp)
    have hrest : ∀ s' ∈ rest, ∀ e ∈ s', P e := fun s' hs' => h s' (by simp [hs'])
    simp only [putBack]
    split
    · split
      · intro s' hs' e hes
        rcases List.mem_cons.mp hs' with rfl | hs'
        · obtain ⟨x, hx, rfl⟩ := List.mem_map.mp hes
          split
          · exact he
          · exact hs x hx
        · exact hrest s' hs' e hes
      · intro s' hs' e hes
        rcases List.mem_cons.mp hs' with rfl | hs'
        · exact hs e hes
        · exact ih' s' hs' e hes
    · intro s' hs' e hes
      rcases List.mem_cons.mp hs' with rfl | hs'
      · exact hs e hes
      · exact ih' s' hs' e hes

theorem loadEach_all {P : FileEntry → Prop} {file : ObjectsAt}
    (hl : ∀ e e', P e → e.load file = some e' → P e') {s : FileSection} (h : ∀ e ∈ s, P e) :
    ∀ e ∈ (loadEach file s).1, P e := by
  induction s with
  | nil => simp [loadEach]
  | cons x es ih =>
    have ih' := ih (fun e he => h e (by simp [he]))
    simp only [loadEach]
    split
    · exact h
    · rename_i x' hx
      intro e he
      rcases List.mem_cons.mp he with rfl | he
      · exact hl x _ (h x (by simp)) hx
      · exact ih' e he

theorem rebuild_all {P : FileEntry → Prop} (hk : ∀ e k, P e → P { e with key := k }) {s : FileSection}
    (h : ∀ e ∈ s, P e) : ∀ e ∈ rebuild s, P e := by
  suffices ∀ acc : FileSection, (∀ e ∈ acc, P e) → ∀ e ∈ s.foldl addEntry acc, P e from this [] (by simp)
  induction s with
  | nil => intro acc ha; simpa using ha
  | cons x xs ih =>
    intro acc ha
    refine ih (fun e he => h e (by simp [he])) _ ?_
    intro e he
    simp only [addEntry, List.mem_append, List.mem_filter, List.mem_singleton] at he
    rcases he with he | rfl
    · exact ha e he.1
    · exact hk _ _ (h x (by simp))

theorem recover_all {P : FileEntry → Prop} {file : ObjectsAt}
    (hl : ∀ e e', P e → e.load file = some e' → P e') (hk : ∀ e k, P e → P { e with key := k })
    {ch : List FileSection} (h : ∀ s ∈ ch, ∀ e ∈ s, P e) : ∀ s ∈ (recover file ch).1, ∀ e ∈ s, P e := by
  induction ch with
  | nil => simp [recover]
  | cons s rest ih =>
    have ih' := ih (fun s' hs' => h s' (by simp [hs']))
    have h1 := loadEach_all hl (h s (by simp))
    simp only [recover]
    split
    · intro s' hs'
      rcases List.mem_cons.mp hs' with rfl | hs'
      · exact rebuild_all hk h1
      · exact ih' s' hs'
    · intro s' hs'
      rcases List.mem_cons.mp hs' with rfl | hs'
      · exact h1
      · exact h s' (by simp [hs'])

theorem loadEach_loaded {file : ObjectsAt} {s : FileSection} (h : (loadEach file s).2 = true) :
    ∀ y ∈ (loadEach file s).1, y.off ≠ none → y.obj ≠ none := by
  induction s with
  | nil => simp [loadEach]
  | cons y ys ih =>
    simp only [loadEach] at h ⊢
    split at h
    · simp at h
    · rename_i y' hy'
      intro z hz
      rcases List.mem_cons.mp hz with rfl | hz
      · rcases y with ⟨k, n1, g1, off1, obj1⟩
        cases obj1 with
        | some _ =>
          simp only [FileEntry.load, Option.some.injEq] at hy'
          subst hy'
          simp
        | none =>
          cases off1 with
          | none =>
            simp only [FileEntry.load, Option.some.injEq] at hy'
            subst hy'
            simp
          | some off1 =>
            simp only [FileEntry.load] at hy'
            split at hy'
            · simp at hy'
            · simp only [Option.some.injEq] at hy'
              subst hy'
              simp
      · exact ih h z hz

theorem recover_loaded {file : ObjectsAt} {ch : List FileSection} (h : (recover file ch).2 = true) :
    ∀ s ∈ (recover file ch).1, ∀ y ∈ s, y.off ≠ none → y.obj ≠ none := by
  induction ch with
  | nil => simp [recover]
  | cons t ts ih =>
    simp only [recover] at h ⊢
    split at h
    · rename_i hload
      simp only [hload, if_true]
      intro s hs
      rcases List.mem_cons.mp hs with rfl | hs
      · exact rebuild_all (P := fun y => y.off ≠ none → y.obj ≠ none) (fun _ _ h => h) (loadEach_loaded hload)
      · exact ih h s hs
    · simp at h

theorem askObject_all {P : FileEntry → Prop} {file : ObjectsAt}
    (hl : ∀ e e', P e → e.load file = some e' → P e') (hk : ∀ e k, P e → P { e with key := k })
    {ch : List FileSection} (h : ∀ s ∈ ch, ∀ e ∈ s, P e) (n g : Nat) :
    ∀ s ∈ (askObject file ch n g).1, ∀ e ∈ s, P e := by
  unfold askObject
  split
  · exact h
  · rename_i e hloc
    obtain ⟨⟨s, hs, hes⟩, _⟩ := locateEntry_mem hloc
    split
    · exact h
    · exact h
    · rename_i e' _ hload
      have h1 := putBack_all (n := n) (g := g) (hl e e' (h s hs e hes) hload) h
      dsimp only
      split
      · exact h1
      · split
        · exact recover_all hl hk h1
        · exact recover_all hl hk h1

theorem askObjects_all {P : FileEntry → Prop} {file : ObjectsAt}
    (hl : ∀ e e', P e → e.load file = some e' → P e') (hk : ∀ e k, P e → P { e with key := k })
    (reqs : List (Nat × Nat)) : ∀ {ch : List FileSection}, (∀ s ∈ ch, ∀ e ∈ s, P e) →
    ∀ s ∈ (askObjects file ch reqs).1, ∀ e ∈ s, P e := by
  induction reqs with
  | nil => intro ch h; exact h
  | cons x rest ih =>
    intro ch h
    exact ih (askObject_all hl hk h x.1 x.2)

/-! ### Revisions that are only mixed up -/

/-- A section with entries in disorder: what the entries lead to is known. -/
structure Loose (file : ObjectsAt) (r : List ListedLine) (s : FileSection) : Prop where
  faces : s.map (faceOf file) = r.map (ListedLine.leadsTo file)
  sure : ∀ e ∈ s, Sure file e

/-- A section in which entries are found under their numbers. -/
structure Settled (file : ObjectsAt) (r : List ListedLine) (s : FileSection) : Prop extends Loose file r s where
  keys : ∀ e ∈ s, e.key = e.num
  once : (s.map (·.num)).Nodup
  same : ∀ n g, (∃ e ∈ s, e.num = n ∧ e.gen = g) ↔ ∃ l ∈ r, ∃ o, l.leadsTo file = some (n, g, o)

theorem Loose.face {file : ObjectsAt} {r : List ListedLine} {s : FileSection} (h : Loose file r s)
    (f : Option (Nat × Nat × Option Obj)) : (∃ e ∈ s, faceOf file e = f) ↔ ∃ l ∈ r, l.leadsTo file = f := by
  have : f ∈ s.map (faceOf file) ↔ f ∈ r.map (ListedLine.leadsTo file) := by rw [h.faces]
  simpa [List.mem_map] using this

theorem Loose.readable {file : ObjectsAt} {r : List ListedLine} {s : FileSection} (h : Loose file r s)
    (hr : OnlyMixedUp file r) {e : FileEntry} (he : e ∈ s) : ∃ n g o, faceOf file e = some (n, g, o) := by
  obtain ⟨l, hl, hf⟩ := (h.face (faceOf file e)).mp ⟨e, he, rfl⟩
  have := hr.readable l hl
  rw [hf] at this
  obtain ⟨⟨n, g, o⟩, hx⟩ := Option.isSome_iff_exists.mp this
  exact ⟨n, g, o, hx⟩

/-- A loaded entry. -/
def after (file : ObjectsAt) (e : FileEntry) : FileEntry := (e.load file).getD e

theorem after_face {file : ObjectsAt} {e : FileEntry} {n g : Nat} {o : Option Obj} (h : Sure file e)
    (hf : faceOf file e = some (n, g, o)) : after file e = { e with num := n, gen := g, obj := o } := by
  simp [after, load_face h hf]

theorem loadEach_full {file : ObjectsAt} {s : FileSection} (hs : ∀ e ∈ s, Sure file e)
    (hf : ∀ e ∈ s, ∃ n g o, faceOf file e = some (n, g, o)) : loadEach file s = (s.map (after file), true) := by
  induction s with
  | nil => rfl
  | cons x xs ih =>
    have ih' := ih (fun e he => hs e (by simp [he])) (fun e he => hf e (by simp [he]))
    obtain ⟨n, g, o, hx⟩ := hf x (by simp)
    have hl := load_face (hs x (by simp)) hx
    simp [loadEach, hl, ih', after]

theorem foldl_addEntry : ∀ (s acc : FileSection), (∀ x ∈ acc, ∀ e ∈ s, x.num ≠ e.num) → (s.map (·.num)).Nodup →
    s.foldl addEntry acc = acc ++ s.map fun e => { e with key := e.num } := by
  intro s
  induction s with
  | nil => intro acc _ _; simp
  | cons x xs ih =>
    intro acc hd hn
    simp only [List.map_cons, List.nodup_cons, List.mem_map, not_exists, not_and] at hn
    have hfilter : acc.filter (fun y => !FileEntry.answersTo x.num y) = acc := by
      apply List.filter_eq_self.mpr
      intro y hy
      have := hd y hy x (by simp)
      simp [FileEntry.answersTo, this]
    rw [List.foldl_cons, addEntry, hfilter, ih _ _ hn.2]
    · simp
    · intro y hy e he
      simp only [List.mem_append, List.mem_singleton] at hy
      rcases hy with hy | rfl
      · exact hd y hy e (by simp [he])
      · exact fun hc => hn.1 e he hc.symm

theorem rebuilt_tidy {file : ObjectsAt} {r : List ListedLine} {s : FileSection} (h : Loose file r s)
    (hr : OnlyMixedUp file r) : (loadEach file s).2 = true ∧ Settled file r (rebuild (loadEach file s).1) ∧
      ∀ e ∈ rebuild (loadEach file s).1, faceOf file e = some (e.num, e.gen, e.obj) := by
  have hread : ∀ e ∈ s, ∃ n g o, faceOf file e = some (n, g, o) := fun e he => h.readable hr he
  have hfull := loadEach_full h.sure hread
  rw [hfull]
  refine ⟨rfl, ?_⟩
  have hnum : ∀ e ∈ s, (faceOf file e).map (·.1) = some (after file e).num := by
    intro e he
    obtain ⟨n, g, o, hf⟩ := hread e he
    rw [after_face (h.sure e he) hf, hf]
    rfl
  have hnd : ((s.map (after file)).map (·.num)).Nodup := by
    have ha := hr.apart
    have : (r.map fun l => (l.leadsTo file).map (·.1)) = ((s.map (after file)).map (·.num)).map some := by
      have h1 : (r.map fun l => (l.leadsTo file).map (·.1)) = (r.map (ListedLine.leadsTo file)).map (Option.map (·.1)) := by
        simp [List.map_map, Function.comp_def]
      rw [h1, ← h.faces, List.map_map, List.map_map, List.map_map]
      exact List.map_congr_left fun e he => hnum e he
    rw [this] at ha
    exact List.Nodup.of_map _ ha
  have hre : rebuild (s.map (after file)) = s.map fun e => { after file e with key := (after file e).num } := by
    rw [rebuild, foldl_addEntry _ [] (by simp) hnd]
    simp [List.map_map, Function.comp_def]
  dsimp only
  rw [hre]
  have hform : ∀ e ∈ s, ∀ n g o, faceOf file e = some (n, g, o) →
      ({ after file e with key := (after file e).num } : FileEntry) = { e with key := n, num := n, gen := g, obj := o } := by
    intro e he n g o hf
    rw [after_face (h.sure e he) hf]
  refine ⟨⟨⟨?_, ?_⟩, ?_, ?_, ?_⟩, ?_⟩
  · rw [← h.faces, List.map_map]
    refine List.map_congr_left fun e he => ?_
    obtain ⟨n, g, o, hf⟩ := hread e he
    simp only [Function.comp_apply]
    rw [hform e he n g o hf, face_same hf, hf]
  · intro e' he'
    obtain ⟨e, he, rfl⟩ := List.mem_map.mp he'
    obtain ⟨n, g, o, hf⟩ := hread e he
    dsimp only
    rw [hform e he n g o hf]
    exact sure_after hf
  · intro e' he'
    obtain ⟨e, he, rfl⟩ := List.mem_map.mp he'
    rfl
  · simpa [List.map_map, Function.comp_def] using hnd
  · intro n g
    constructor
    · rintro ⟨e', he', h1, h2⟩
      obtain ⟨e, he, rfl⟩ := List.mem_map.mp he'
      obtain ⟨n', g', o, hf⟩ := hread e he
      dsimp only at h1 h2
      rw [after_face (h.sure e he) hf] at h1 h2
      dsimp only at h1 h2
      subst h1 h2
      obtain ⟨l, hl, hlf⟩ := (h.face _).mp ⟨e, he, hf⟩
      exact ⟨l, hl, o, hlf⟩
    · rintro ⟨l, hl, o, hf⟩
      obtain ⟨e, he, hef⟩ := (h.face _).mpr ⟨l, hl, hf⟩
      refine ⟨_, List.mem_map.mpr ⟨e, he, rfl⟩, ?_⟩
      rw [hform e he n g o hef]
      exact ⟨rfl, rfl⟩
  · intro e' he'
    obtain ⟨e, he, rfl⟩ := List.mem_map.mp he'
    obtain ⟨n, g, o, hf⟩ := hread e he
    rw [hform e he n g o hf]
    exact face_same hf

theorem recovered {file : ObjectsAt} {revs : List (List ListedLine)} {ch : List FileSection}
    (h : List.Forall₂ (Loose file) revs ch) (hr : ∀ r ∈ revs, OnlyMixedUp file r) :
    (recover file ch).2 = true ∧ List.Forall₂ (Settled file) revs (recover file ch).1 ∧
    ∀ s ∈ (recover file ch).1, ∀ e ∈ s, faceOf file e = some (e.num, e.gen, e.obj) := by
  induction h with
  | nil => exact ⟨rfl, .nil, by simp [recover]⟩
  | @cons r s revs ch h1 _ ih =>
    obtain ⟨ha, hb, hall⟩ := ih fun r' hr' => hr r' (by simp [hr'])
    obtain ⟨hc, hd, hone⟩ := rebuilt_tidy h1 (hr r (by simp))
    simp only [recover, hc, if_true]
    refine ⟨ha, .cons hd hb, ?_⟩
    intro s' hs'
    rcases List.mem_cons.mp hs' with rfl | hs'
    · exact hone
    · exact hall s' hs'

theorem Settled.unique {file : ObjectsAt} {r : List ListedLine} {s : FileSection} (h : Settled file r s) {x y : FileEntry}
    (hx : x ∈ s) (hy : y ∈ s) (he : x.num = y.num) : x = y :=
  List.inj_on_of_nodup_map h.once hx hy he

theorem Settled.find {file : ObjectsAt} {r : List ListedLine} {s : FileSection} (h : Settled file r s) {e : FileEntry}
    (he : e ∈ s) : s.find? (FileEntry.answersTo e.num) = some e := by
  cases hf : s.find? (FileEntry.answersTo e.num) with
  | none =>
    have := List.find?_eq_none.mp hf e he
    simp [FileEntry.answersTo, h.keys e he] at this
  | some x =>
    have h1 := List.find?_some hf
    simp only [FileEntry.answersTo, Bool.and_eq_true, beq_iff_eq] at h1
    rw [h.unique (List.mem_of_find?_eq_some hf) he h1.2]

/-- No two lines of a revision lead to an object with one number. -/
theorem inRevision_eq {file : ObjectsAt} {r : List ListedLine} (hr : (r.map fun l => (l.leadsTo file).map (·.1)).Nodup)
    {l : ListedLine} (hl : l ∈ r) {n g : Nat} {o : Option Obj} (hf : l.leadsTo file = some (n, g, o)) :
    inRevision file r n g = some o := by
  cases hx : inRevision file r n g with
  | none =>
    have := List.findSome?_eq_none_iff.mp hx l hl
    simp [hf] at this
  | some o' =>
    obtain ⟨l', hl', hv⟩ := List.exists_of_findSome?_eq_some hx
    split at hv
    · rename_i n' g' o'' hf'
      split at hv
      · rename_i hng
        simp only [Option.some.injEq] at hv
        subst hv
        have : l = l' := by
          apply List.inj_on_of_nodup_map hr hl hl'
          simp [hf, hf', hng.1]
        subst this
        rw [hf] at hf'
        simp only [Option.some.injEq, Prod.mk.injEq] at hf'
        rw [hf'.2.2]
      · simp at hv
    · simp at hv

theorem inRevision_none {file : ObjectsAt} {r : List ListedLine} {n g : Nat}
    (h : ¬ ∃ l ∈ r, ∃ o, l.leadsTo file = some (n, g, o)) : inRevision file r n g = none := by
  refine List.findSome?_eq_none_iff.mpr fun l hl => ?_
  split
  · rename_i n' g' o hf
    split
    · rename_i hng
      exact absurd ⟨l, hl, o, by rw [hf, hng.1, hng.2]⟩ h
    · rfl
  · rfl

/-- What the entry of a tidy section says about the object of its numbers. -/
theorem Settled.says {file : ObjectsAt} {r : List ListedLine} {s : FileSection} (h : Settled file r s) (hr : OnlyMixedUp file r)
    {e : FileEntry} (he : e ∈ s) : ∃ o, inRevision file r e.num e.gen = some o ∧
      (∀ o', faceOf file e = some (e.num, e.gen, o') → o = o') ∧ (e.off = none → o = none) ∧ (e.off ≠ none → o ≠ none) := by
  obtain ⟨l, hl, o, hf⟩ := (h.same e.num e.gen).mp ⟨e, he, rfl, rfl⟩
  have hin := inRevision_eq hr.apart hl hf
  have hface : ∀ o', faceOf file e = some (e.num, e.gen, o') → o = o' := by
    intro o' ho'
    obtain ⟨l', hl', hf'⟩ := (h.face _).mp ⟨e, he, ho'⟩
    have := inRevision_eq hr.apart hl' hf'
    rw [hin] at this
    simpa using this
  refine ⟨o, hin, hface, ?_, ?_⟩
  · intro hn
    exact hface none (by simp [faceOf, ListedLine.leadsTo, hn])
  · intro hn ho
    subst ho
    obtain ⟨x, hx, hxf⟩ := (h.face _).mpr ⟨l, hl, hf⟩
    have hxo : x.off = none := by
      cases hxo : x.off with
      | none => rfl
      | some off => simp [faceOf, ListedLine.leadsTo, hxo] at hxf
    have : x.num = e.num := by
      simp only [faceOf, ListedLine.leadsTo, hxo, Option.some.injEq, Prod.mk.injEq] at hxf
      exact hxf.1
    exact hn (h.unique hx he this ▸ hxo)

/-- Looking in one section. -/
theorem Settled.look {file : ObjectsAt} {r : List ListedLine} {s : FileSection} (h : Settled file r s) (n g : Nat) :
    (∃ e ∈ s, e.num = n ∧ e.gen = g ∧ s.find? (FileEntry.answersTo n) = some e) ∨
    ((∀ e, s.find? (FileEntry.answersTo n) = some e → e.gen ≠ g) ∧ inRevision file r n g = none) := by
  by_cases hx : ∃ e ∈ s, e.num = n ∧ e.gen = g
  · obtain ⟨e, he, rfl, rfl⟩ := hx
    exact .inl ⟨e, he, rfl, rfl, h.find he⟩
  · refine .inr ⟨?_, inRevision_none fun hl => hx ((h.same n g).mpr hl)⟩
    intro e hf hg
    have h1 := List.find?_some hf
    simp only [FileEntry.answersTo, Bool.and_eq_true, beq_iff_eq] at h1
    exact hx ⟨e, List.mem_of_find?_eq_some hf, h1.2, hg⟩

theorem locateEntry_says {file : ObjectsAt} {revs : List (List ListedLine)} {ch : List FileSection}
    (h : List.Forall₂ (Settled file) revs ch) (hr : ∀ r ∈ revs, OnlyMixedUp file r) (n g : Nat) :
    (locateEntry ch n g = none ∧ (revs.findSome? fun r => inRevision file r n g) = none) ∨
    ∃ e, locateEntry ch n g = some e ∧ Sure file e ∧ (∃ n g o, faceOf file e = some (n, g, o)) ∧
      ∃ o, (revs.findSome? fun r => inRevision file r n g) = some o ∧
        (∀ o', faceOf file e = some (n, g, o') → o = o') ∧ (e.off = none → o = none) ∧ (e.off ≠ none → o ≠ none) := by
  induction h with
  | nil => exact .inl ⟨rfl, rfl⟩
  | @cons r s revs ch h1 _ ih =>
    have ih' := ih fun r' hr' => hr r' (by simp [hr'])
    rcases h1.look n g with ⟨e, he, rfl, rfl, hf⟩ | ⟨hno, hin⟩
    · obtain ⟨o, ho, h2⟩ := h1.says (hr r (by simp)) he
      exact .inr ⟨e, by simp [locateEntry, hf], h1.sure e he, h1.readable (hr r (by simp)) he, o, by simp [ho], h2⟩
    · have hloc : locateEntry (s :: ch) n g = locateEntry ch n g := by
        simp only [locateEntry]
        split
        · rename_i e hf
          simp [hno e hf]
        · rfl
      rw [hloc]
      simpa [hin] using ih'

/-- The entry that was found is loaded. -/
theorem putBack_loose {file : ObjectsAt} {revs : List (List ListedLine)} {ch : List FileSection}
    (h : List.Forall₂ (Settled file) revs ch) {n g : Nat} {e : FileEntry} (hloc : locateEntry ch n g = some e) {n' g' : Nat}
    {o : Option Obj} (hf : faceOf file e = some (n', g', o)) :
    List.Forall₂ (Loose file) revs (putBack { e with num := n', gen := g', obj := o } ch n g) ∧
    (n' = n → g' = g → List.Forall₂ (Settled file) revs (putBack { e with num := n', gen := g', obj := o } ch n g)) := by
  induction h with
  | nil => simp [locateEntry] at hloc
  | @cons r s revs ch h1 h2 ih =>
    have hloose : List.Forall₂ (Loose file) revs ch := h2.imp fun _ _ => Settled.toLoose
    rcases h1.look n g with ⟨x, hx, rfl, rfl, hfind⟩ | ⟨hno, hin⟩
    · have : x = e := by simpa [locateEntry, hfind] using hloc
      subst this
      have hput : putBack { x with num := n', gen := g', obj := o } (s :: ch) x.num x.gen =
          s.map (fun y => if FileEntry.answersTo x.num y then { x with num := n', gen := g', obj := o } else y) :: ch := by
        simp [putBack, hfind]
      rw [hput]
      have hwho : ∀ y ∈ s, FileEntry.answersTo x.num y = true → y = x := by
        intro y hy ha
        simp only [FileEntry.answersTo, Bool.and_eq_true, beq_iff_eq] at ha
        exact h1.unique hy hx ha.2
      have hl : Loose file r (s.map fun y =>
          if FileEntry.answersTo x.num y then { x with num := n', gen := g', obj := o } else y) := by
        constructor
        · rw [← h1.faces, List.map_map]
          refine List.map_congr_left fun y hy => ?_
          simp only [Function.comp_apply]
          split
          · rename_i ha
            rw [hwho y hy ha, hf]
            exact face_same (k := x.key) hf
          · rfl
        · intro y' hy'
          obtain ⟨y, hy, rfl⟩ := List.mem_map.mp hy'
          split
          · exact sure_after (k := x.key) hf
          · exact h1.sure y hy
      refine ⟨.cons hl hloose, ?_⟩
      rintro rfl rfl
      have hnum : ∀ y ∈ s, (if FileEntry.answersTo x.num y then { x with num := x.num, gen := x.gen, obj := o } else y : FileEntry).num = y.num ∧
          (if FileEntry.answersTo x.num y then { x with num := x.num, gen := x.gen, obj := o } else y : FileEntry).gen = y.gen ∧
          (if FileEntry.answersTo x.num y then { x with num := x.num, gen := x.gen, obj := o } else y : FileEntry).key = y.key := by
        intro y hy
        split
        · rename_i ha
          rw [hwho y hy ha]
          exact ⟨rfl, rfl, rfl⟩
        · exact ⟨rfl, rfl, rfl⟩
      refine .cons ⟨hl, ?_, ?_, ?_⟩ h2
      · intro y' hy'
        obtain ⟨y, hy, rfl⟩ := List.mem_map.mp hy'
        rw [(hnum y hy).1, (hnum y hy).2.2]
        exact h1.keys y hy
      · rw [List.map_map]
        have : s.map ((·.num) ∘ fun y => if FileEntry.answersTo x.num y then { x with num := x.num, gen := x.gen, obj := o } else y)
            = s.map (·.num) := List.map_congr_left fun y hy => (hnum y hy).1
        rw [this]
        exact h1.once
      · intro m k
        rw [← h1.same m k]
        constructor
        · rintro ⟨y', hy', ha, hb⟩
          obtain ⟨y, hy, rfl⟩ := List.mem_map.mp hy'
          rw [(hnum y hy).1] at ha
          rw [(hnum y hy).2.1] at hb
          exact ⟨y, hy, ha, hb⟩
        · rintro ⟨y, hy, ha, hb⟩
          refine ⟨_, List.mem_map.mpr ⟨y, hy, rfl⟩, ?_, ?_⟩
          · rw [(hnum y hy).1]; exact ha
          · rw [(hnum y hy).2.1]; exact hb
    · have hloc' : locateEntry ch n g = some e := by
        have : locateEntry (s :: ch) n g = locateEntry ch n g := by
          simp only [locateEntry]
          split
          · rename_i y hy
            simp [hno y hy]
          · rfl
        rw [← this]
        exact hloc
      have hput : ∀ e', putBack e' (s :: ch) n g = s :: putBack e' ch n g := by
        intro e'
        simp only [putBack]
        split
        · rename_i y hy
          simp [hno y hy]
        · rfl
      rw [hput]
      obtain ⟨ha, hb⟩ := ih hloc'
      exact ⟨.cons h1.toLoose ha, fun h3 h4 => .cons h1 (hb h3 h4)⟩

theorem askObject_true {file : ObjectsAt} {revs : List (List ListedLine)} {ch : List FileSection}
    (h : List.Forall₂ (Settled file) revs ch) (hr : ∀ r ∈ revs, OnlyMixedUp file r) (n g : Nat) :
    List.Forall₂ (Settled file) revs (askObject file ch n g).1 ∧
    (askObject file ch n g).2 = .ok (trueObject file revs n g) := by
  rcases locateEntry_says h hr n g with ⟨hl, ht⟩ | ⟨e, hl, hsure, ⟨n', g', o', hf⟩, o, ht, hface, hfree, hused⟩
  · simp [askObject, hl, trueObject, ht, h]
  · cases hoff : e.off with
    | none => simp [askObject, hl, hoff, trueObject, ht, h, hfree hoff]
    | some off =>
      have hload := load_face hsure hf
      obtain ⟨hloose, htidy⟩ := putBack_loose h hl hf
      rw [hoff] at hload hloose htidy
      simp only [askObject, hl, hoff, hload]
      by_cases hm : n' = n ∧ g' = g
      · obtain ⟨rfl, rfl⟩ := hm
        simp only [and_self, if_true]
        exact ⟨htidy rfl rfl, by simp [trueObject, ht, hface o' hf]⟩
      · obtain ⟨hall, hch, hevery⟩ := recovered hloose hr
        simp only [hm, if_false, hall, if_true]
        refine ⟨hch, ?_⟩
        rcases locateEntry_says hch hr n g with ⟨_, ht'⟩ | ⟨x, hx, hxs, ⟨n2, g2, o2, hxf⟩, o3, ht3, hface3, hfree3, hused3⟩
        · rw [ht] at ht'; simp at ht'
        · rw [ht] at ht3
          simp only [Option.some.injEq] at ht3
          subst ht3
          cases hxo : x.off with
          | none => exact absurd (hfree3 hxo) (hused (by simp [hoff]))
          | some xoff =>
            obtain ⟨⟨s, hs, hxs'⟩, hxn, hxg⟩ := locateEntry_mem hx
            have hxface := hevery s hs x hxs'
            rw [hxn, hxg] at hxface
            have hxl := load_face hxs hxface
            simp [askAgain, hx, hxo, hxl, trueObject, ht, hface3 _ hxface]

end Misnumbered
end VPdf
