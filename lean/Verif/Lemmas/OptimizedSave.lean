import Verif.Lemmas.Shown
import Verif.Lemmas.CodeCmp
import Verif.Lemmas.Squash
import Verif.Lemmas.NameTree
import Verif.Model.OptimizedSave
/-
  Lemmas about the ordinary save: what the optimisations give can be written.
-/
namespace VPdf
open Spec

/-- A number of 63 bits and a generation of 16 bits. -/
def goodRef (r : Nat × Nat) : Prop := r.1 ≤ 9223372036854775807 ∧ r.2 ≤ 65535

/-- A table as it is met between the optimisations; its objects have the property `P`. -/
structure WriteReady (P : SObj → Prop) (s : WSection) : Prop where
  own : s.own = none
  sorted : s.entries.Pairwise fun a b => a.num < b.num
  count : s.entries.length ≤ 2147483648
  entries : ∀ e ∈ s.entries, goodRef (e.num, e.gen) ∧ (e.kind = .free 0 ∨ ∃ off o, e.kind = .used off (some o) ∧ Storable o ∧ P o)
  trailer : Holdable (.dict s.trailer)
  keys : ∀ q, q ∉ trailerKeys → q ≠ b! "Size" → mapFind q s.trailer = none
  size : ∃ i, mapFind (b! "Size") s.trailer = some (.int i)
  prev : mapFind (b! "Prev") s.trailer = none

/-! ### Changed references -/

variable {P : SObj → Prop}

theorem mapRefsItems_list (f : Nat × Nat → Nat × Nat) : ∀ l : List Obj, mapRefsItems f l = l.map (mapRefs f)
  | [] => rfl
  | o :: os => by rw [mapRefsItems, List.map_cons, mapRefsItems_list f os]

theorem mapRefsEntries_list (f : Nat × Nat → Nat × Nat) : ∀ l : List (Bytes × Obj),
    mapRefsEntries f l = l.map fun x => (x.1, mapRefs f x.2)
  | [] => rfl
  | (k, o) :: os => by rw [mapRefsEntries, List.map_cons, mapRefsEntries_list f os]

theorem mapRefsEntries_find (f : Nat × Nat → Nat × Nat) (q : Bytes) : ∀ l : List (Bytes × Obj),
    mapFind q (mapRefsEntries f l) = (mapFind q l).map (mapRefs f)
  | [] => rfl
  | (k, o) :: os => by
    rw [mapRefsEntries, mapFind, mapFind, mapRefsEntries_find f q os]
    split <;> rfl

theorem holdable_mapRefs {f : Nat × Nat → Nat × Nat} (hf : ∀ r, goodRef r → goodRef (f r)) {o : Obj} (h : Holdable o) :
    Holdable (mapRefs f o) := by
  induction h with
  | null => exact .null
  | bool b => exact .bool b
  | int i h1 h2 => exact .int i h1 h2
  | real m p h => exact .real m p h
  | name n => exact .name n
  | lit v => exact .lit v
  | hex v => exact .hex v
  | ref n g h1 h2 => have := hf (n, g) ⟨h1, h2⟩; exact .ref _ _ this.1 this.2
  | arr l _ ih =>
    rw [mapRefs, mapRefsItems_list]
    refine .arr _ fun x hx => ?_
    obtain ⟨y, hy, rfl⟩ := List.mem_map.mp hx
    exact ih y hy
  | dict l hs _ ih =>
    rw [mapRefs, mapRefsEntries_list]
    refine .dict _ (List.pairwise_map.mpr hs) fun x hx => ?_
    obtain ⟨y, hy, rfl⟩ := List.mem_map.mp hx
    exact ih y hy

theorem holdable_mapEntries {f : Nat × Nat → Nat × Nat} (hf : ∀ r, goodRef r → goodRef (f r)) {d : Dict} (h : Holdable (.dict d)) :
    Holdable (.dict (mapRefsEntries f d)) := by
  have := holdable_mapRefs hf h
  rw [mapRefs] at this
  exact this

theorem storable_mapRefs {f : Nat × Nat → Nat × Nat} (hf : ∀ r, goodRef r → goodRef (f r)) {o : SObj} (h : Storable o) :
    Storable (mapRefsS f o) := by
  cases o with
  | direct o => exact holdable_mapRefs hf h
  | stream d b => exact holdable_mapEntries hf h

/-- Other entries and changed references in the trailer. -/
theorem ready_change {s : WSection} (h : WriteReady P s) {f : Nat × Nat → Nat × Nat} (hf : ∀ r, goodRef r → goodRef (f r)) {t : WSection}
    (hown : t.own = none) (hs : t.entries.Pairwise fun a b => a.num < b.num) (hl : t.entries.length ≤ s.entries.length)
    (he : ∀ e ∈ t.entries, goodRef (e.num, e.gen) ∧ (e.kind = .free 0 ∨ ∃ off o, e.kind = .used off (some o) ∧ Storable o ∧ P o))
    (ht : t.trailer = mapRefsEntries f s.trailer) : WriteReady P t := by
  refine ⟨hown, hs, Nat.le_trans hl h.count, he, ?_, ?_, ?_, ?_⟩
  · rw [ht]; exact holdable_mapEntries hf h.trailer
  · intro q h1 h2; rw [ht, mapRefsEntries_find, h.keys q h1 h2]; rfl
  · obtain ⟨i, hi⟩ := h.size
    exact ⟨i, by rw [ht, mapRefsEntries_find, hi]; rfl⟩
  · rw [ht, mapRefsEntries_find, h.prev]; rfl

theorem mapRefsEntries_same (d : Dict) : mapRefsEntries (fun r => r) d = d := mapRefsEntries_id _ d fun _ _ => rfl

/-- Some entries removed. -/
theorem ready_sub {s : WSection} (h : WriteReady P s) {t : WSection} (hown : t.own = none) (hsub : t.entries.Sublist s.entries)
    (ht : t.trailer = s.trailer) : WriteReady P t :=
  ready_change h (f := fun r => r) (fun _ h => h) hown (h.sorted.sublist hsub) hsub.length_le
    (fun e he => h.entries e (hsub.subset he)) (by rw [ht, mapRefsEntries_same])

/-! ### The stages -/

theorem redirect_good (c : Cmp) (s : WSection) {dups : List Dup} (hd : ∀ d ∈ dups, goodRef d.target) (r : Nat × Nat) (hr : goodRef r) :
    goodRef (redirect c s dups r) := by
  rw [redirect]
  cases hf : findDup c s dups (currentObject s r) with
  | none => exact hr
  | some d => exact hd d (List.mem_of_find?_eq_some hf)

theorem ready_redirectEntry (hP : ∀ f o, P o → P (mapRefsS f o)) (c : Cmp) {dups : List Dup} (hd : ∀ d ∈ dups, goodRef d.target) {s : WSection} (h : WriteReady P s) (e : WEntry) :
    WriteReady P (redirectEntry c dups s e) := by
  rw [redirectEntry, if_neg (by rw [h.own]; simp)]
  refine ready_change h (f := fun r => r) (fun _ h => h) h.own ?_ (by simp) ?_ (mapRefsEntries_same _).symm
  · dsimp only
    rw [List.pairwise_map]
    refine h.sorted.imp fun {a b} hab => ?_
    have : ∀ x : WEntry, ∀ k : WKind, (if x.num = e.num then { x with kind := k } else x).num = x.num := by
      intro x k; split <;> rfl
    rw [this, this]
    exact hab
  · intro x hx
    dsimp only at hx
    obtain ⟨y, hy, rfl⟩ := List.mem_map.mp hx
    obtain ⟨h1, h2⟩ := h.entries y hy
    by_cases hn : y.num = e.num
    · rw [if_pos hn]
      refine ⟨h1, ?_⟩
      rcases h2 with h2 | ⟨off, o, h2, h3⟩
      · left; dsimp only; rw [h2]
      · right
        exact ⟨off, mapRefsS (redirect c s dups) o, by dsimp only; rw [h2]; rfl, storable_mapRefs (redirect_good c s hd) h3.1, hP _ _ h3.2⟩
    · rw [if_neg hn]; exact ⟨h1, h2⟩

theorem ready_redirectFold (hP : ∀ f o, P o → P (mapRefsS f o)) (c : Cmp) {dups : List Dup} (hd : ∀ d ∈ dups, goodRef d.target) : ∀ (l : List WEntry) {s : WSection}, WriteReady P s →
    WriteReady P (l.foldl (redirectEntry c dups) s)
  | [], _, h => h
  | e :: es, _, h => ready_redirectFold hP c hd es (ready_redirectEntry hP c hd h e)

theorem ready_redirectAll (hP : ∀ f o, P o → P (mapRefsS f o)) (c : Cmp) {dups : List Dup} (hd : ∀ d ∈ dups, goodRef d.target) (l : List WEntry) {s : WSection} (h : WriteReady P s) :
    WriteReady P (redirectAll c dups s l) := by
  rw [redirectAll]
  have h' := ready_redirectFold hP c hd l h
  generalize l.foldl (redirectEntry c dups) s = u at h'
  exact ready_change h' (redirect_good c u hd) h'.own h'.sorted (Nat.le_refl _) h'.entries rfl

theorem ready_release (dups : List Dup) {s : WSection} (h : WriteReady P s) : WriteReady P (releaseDups dups s) := by
  rw [releaseDups]
  refine ready_change h (f := fun r => r) (fun _ h => h) h.own ?_ (by simp) ?_ (mapRefsEntries_same _).symm
  · dsimp only
    rw [List.pairwise_map]
    refine h.sorted.imp fun {a b} hab => ?_
    have : ∀ x : WEntry, (if dups.any (fun d => d.key.1 == x.num) then (⟨x.num, 0, .free 0⟩ : WEntry) else x).num = x.num := by
      intro x; split <;> rfl
    rw [this, this]
    exact hab
  · intro x hx
    dsimp only at hx
    obtain ⟨y, hy, rfl⟩ := List.mem_map.mp hx
    split
    · exact ⟨⟨(h.entries y hy).1.1, Nat.zero_le _⟩, .inl rfl⟩
    · exact h.entries y hy

theorem ready_rounds (hP : ∀ f o, P o → P (mapRefsS f o)) {c : Cmp} {order : WSection → List WEntry} (hord : ∀ s, (order s).Perm s.entries) {s t : WSection} (h : WriteReady P s)
    (hr : Rounds c order s t) : WriteReady P t := by
  induction hr with
  | start => exact h
  | next t t' _ hs ih =>
    obtain ⟨dups, _, hf, rfl⟩ := removeDupsOnce_some hord hs
    have ok := dupsOk_order (c := c) hord ih.sorted
    rw [hf] at ok
    refine ready_release _ (ready_redirectAll hP c ?_ _ ih)
    intro d hd
    obtain ⟨x, _, u, hu, _, _, _, _, ht, _⟩ := ok.origin d hd
    rw [ht]
    exact (ih.entries u hu).1

theorem newNumber_lt : ∀ (es : List WEntry) (i n j : Nat), newNumber es i n = some j → j < i + es.length
  | [], _, _, _, h => by cases h
  | e :: es, i, n, j, h => by
    rw [newNumber] at h
    rw [List.length_cons]
    split at h
    · injection h with h; omega
    · have := newNumber_lt es (i + 1) n j h; omega

theorem squashRef_good {s : WSection} (h : WriteReady P s) (r : Nat × Nat) (hr : goodRef r) : goodRef (squashRef s r) := by
  have hc := h.count
  rw [squashRef]
  cases hf : findEntry s.entries r.1 r.2 with
  | none => exact hr
  | some e =>
    dsimp only
    have he := ((findEntry_some h.sorted _ _ _).mp hf).1
    have hg := (h.entries e he).1
    have key : goodRef ((newNumber s.entries 0 e.num).getD e.num, e.gen) := by
      refine ⟨?_, hg.2⟩
      cases hn : newNumber s.entries 0 e.num with
      | none => exact hg.1
      | some j => have := newNumber_lt _ _ _ _ hn; show j ≤ _; omega
    split
    · exact hr
    · exact key

theorem ready_squash (hP : ∀ f o, P o → P (mapRefsS f o)) {s : WSection} (h : WriteReady P s) : WriteReady P (squash s) := by
  have hc := h.count
  refine ready_change h (squashRef_good h) (t := squash s) (by rw [squash, h.own]; rfl) (renumber_sorted _ _ _)
    (Nat.le_of_eq (renumber_length _ _ _)) ?_ rfl
  intro e he
  obtain ⟨j, hj⟩ := List.getElem?_of_mem he
  have hlt : j < s.entries.length := by
    have := (List.getElem?_eq_some_iff.mp hj).1
    rwa [show (squash s).entries.length = s.entries.length from renumber_length _ _ _] at this
  have := renumber_get s s.entries 0 j _ (List.getElem?_eq_getElem hlt)
  rw [show (renumber s 0 s.entries) = (squash s).entries from rfl, hj] at this
  injection this with this
  subst this
  obtain ⟨h1, h2⟩ := h.entries _ (List.getElem_mem hlt)
  generalize s.entries[j] = x at *
  refine ⟨⟨by show 0 + j ≤ _; omega, h1.2⟩, ?_⟩
  rcases h2 with h2 | ⟨off, o, h2, h3⟩
  · left; rw [renumbered, h2]
  · right
    exact ⟨off, mapRefsS (squashRef s) o, by rw [renumbered, h2]; rfl, storable_mapRefs (squashRef_good h) h3.1, hP _ _ h3.2⟩

/-- What the stages give for a table that is ready. -/
theorem ready_optimized (hP : ∀ f o, P o → P (mapRefsS f o)) {c : Cmp} {order : WSection → List WEntry} (hord : ∀ s, (order s).Perm s.entries) {m : WSection} (h : WriteReady P m) :
    WriteReady P (squash (removeFreed (removeDups c order (removeUnreferenced m)))) := by
  have h1 : WriteReady P (removeUnreferenced m) := ready_sub h h.own List.filter_sublist rfl
  have h2 := ready_rounds hP hord h1 (removeDups_none (c := c) hord h1.sorted).2
  exact ready_squash hP (ready_sub h2 h2.own (removeFreed_sub _) rfl)

/-! ### Writing -/

theorem WriteReady.goodSection {s : WSection} (h : WriteReady P s) : GoodSection s := by
  refine ⟨h.sorted, h.count, fun e he => (h.entries e he).1, fun e he => ?_, h.trailer, ?_⟩
  · rcases (h.entries e he).2 with h2 | ⟨off, o, h2, h3⟩ <;> rw [h2]
    · trivial
    · intro x hx; injection hx with hx; rw [← hx]; exact h3.1
  · intro n g hn; rw [h.own] at hn; cases hn

theorem WriteReady.cloneEntries {s : WSection} (h : WriteReady P s) : s.entries.map cloneEntry = s.entries := by
  refine (List.map_congr_left fun e he => ?_).trans (List.map_id _)
  obtain ⟨n, g, k⟩ := e
  rcases (h.entries _ he).2 with h2 | ⟨off, o, h2, _⟩ <;> dsimp only at h2 <;> subst h2 <;> rfl

/-- Cloning once more does not change what is written. -/
theorem WriteReady.recalc_clone {s : WSection} (h : WriteReady P s) (resolve : Nat → Nat → Res Int) :
    recalcSection resolve none (cloneSection s) = recalcSection resolve none s := by
  have hc := h.count
  have hs0 : Holdable (.dict [(b! "Size", .int s.entries.length)]) :=
    .dict _ (List.pairwise_singleton _ _) (by intro x hx; simp at hx; subst hx; exact .int _ (by omega) (by omega))
  obtain ⟨h1, h2⟩ := cloneTrailer_fold s.trailer trailerKeys _ h.trailer hs0
  have hn : Holdable (.int s.entries.length) := .int _ (by omega) (by omega)
  have hcl : cloneSection s = ⟨none, s.entries, cloneTrailer s.entries.length s.trailer⟩ := by
    rw [cloneSection, h.own, h.cloneEntries]
  have hsz : mapFind (b! "Size") (cloneTrailer s.entries.length s.trailer) = some (.int s.entries.length) := (h2 _).trans rfl
  obtain ⟨i, hi⟩ := h.size
  have key : setInteger (b! "Size") s.entries.length (cloneTrailer s.entries.length s.trailer) = setInteger (b! "Size") s.entries.length s.trailer := by
    have e1 : setInteger (b! "Size") s.entries.length (cloneTrailer s.entries.length s.trailer) =
        .ok (dictSet (b! "Size") (.int s.entries.length) (cloneTrailer s.entries.length s.trailer)) := by rw [setInteger, hsz]
    have e2 : setInteger (b! "Size") s.entries.length s.trailer = .ok (dictSet (b! "Size") (.int s.entries.length) s.trailer) := by
      rw [setInteger, hi]
    obtain ⟨a1, a2, a3⟩ := setInteger_spec e1 h1 hn
    obtain ⟨b1, b2, b3⟩ := setInteger_spec e2 h.trailer hn
    rw [e1, e2]
    congr 1
    refine sorted_ext (holdable_dict a1).1 (holdable_dict b1).1 fun q => ?_
    by_cases hq : q = b! "Size"
    · rw [hq, a2, b2]
    · rw [a3 q hq, b3 q hq]
      refine (h2 q).trans ?_
      rw [mapFind, if_neg (by simpa using hq), mapFind]
      dsimp only
      by_cases hk : q ∈ trailerKeys
      · rw [if_pos hk]
      · rw [if_neg hk, h.keys q hk hq]
  rw [recalcSection, recalcSection, hcl]
  dsimp only
  rw [h.own, ok_bind, ok_bind, key]

theorem WriteReady.save_one {s : WSection} (h : WriteReady P s) (c : Codec) (v : PdfVersion) :
    saveFile c v [s] = writeChain c (destResolve [s]) (writeHeader v) none [s] := by
  have hres : destResolve [cloneSection s] = destResolve [s] := by
    have : (cloneSection s).entries = s.entries := h.cloneEntries
    funext n g
    rw [destResolve, destResolve, this]; rfl
  rw [saveFile]
  show writeChain c (destResolve [cloneSection s]) (writeHeader v) none [cloneSection s] = _
  rw [hres, writeChain, writeChain, writeSection, writeSection, h.recalc_clone]

end VPdf
