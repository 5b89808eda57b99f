import Verif.Lemmas.Dedupe
/-
  Removing duplicate objects: what a reader sees stays the same.
-/
set_option linter.unusedSectionVars false

namespace VPdf
open Spec

/-- A comparison that is right for the objects in `P`. -/
structure Honest {α : Type} (c : Cmp) (view : Obj → α) (P : SObj → Prop) : Prop where
  null : P (.direct .null)
  closed : ∀ ρ a, P a → P (mapRefsS ρ a)
  same : ∀ s a b, P a → P b → c.eq s a b = true → ∀ f, treeOfS view f a = treeOfS view f b
  refl : ∀ s a, P a → c.eq s a a = true
  fixed : ∀ s s' a b, P a → P b → c.eq s a b = c.eq s' a b

section
variable {α : Type} (view : Obj → α)

/-- Nobody sees a difference between the two references. -/
def Alike (s : WSection) (r q : Nat × Nat) : Prop := ∀ k, behind view s k r = behind view s k q

/-- The same for two references that are alike. -/
def Blind (s : WSection) (f : Nat × Nat → Tree α) : Prop := ∀ r q, Alike view s r q → f r = f q

/-- `s` is the state of the section `s0` while references are redirected. -/
structure Sim (P : SObj → Prop) (s0 s : WSection) : Prop where
  own : s.own = s0.own
  shape : s.entries.map shape = s0.entries.map shape
  objects : ∀ r f, Blind view s0 f → treeOfS view f (objectAt s r) = treeOfS view f (objectAt s0 r)
  trailer : ∀ f, Blind view s0 f → treeEntries view f s.trailer = treeEntries view f s0.trailer
  good : ∀ r, P (objectAt s r)

variable {view}

theorem blind_behind (s : WSection) (k : Nat) : Blind view s (behind view s k) := fun _ _ h => h k

theorem sim_refl {P : SObj → Prop} {s : WSection} (h : ∀ r, P (objectAt s r)) : Sim view P s s :=
  ⟨rfl, rfl, fun _ _ _ => rfl, fun _ _ => rfl, h⟩

theorem sim_behind {P : SObj → Prop} {s0 s : WSection} (h : Sim view P s0 s) : ∀ k r, behind view s k r = behind view s0 k r := by
  intro k
  induction k with
  | zero => intro r; rfl
  | succ k ih =>
    intro r
    rw [behind, behind, show behind view s k = behind view s0 k from funext ih]
    exact h.objects r _ (blind_behind s0 k)

theorem sim_seen {P : SObj → Prop} {s0 s : WSection} (h : Sim view P s0 s) (k : Nat) : seen view s k = seen view s0 k := by
  rw [seen, seen, show behind view s k = behind view s0 k from funext (sim_behind h k)]
  exact h.trailer _ (blind_behind s0 k)

variable {c : Cmp} {P : SObj → Prop} (hc : Honest c view P) {s0 : WSection} (hs0 : s0.entries.Pairwise fun a b => a.num < b.num)
  (hP : ∀ r, P (objectAt s0 r)) {dups : List Dup} (hd : DupsOk c s0 s0.entries dups)
include hc hs0 hP hd

/-- A redirected reference is like the old one. -/
theorem redirect_alike {s : WSection} (h : Sim view P s0 s) (r : Nat × Nat) : Alike view s0 (redirect c s dups r) r := by
  have hs := sorted_of_shape h.shape hs0
  intro k
  rw [redirect]
  cases hf : findDup c s dups (currentObject s r) with
  | none => rfl
  | some d =>
    dsimp only
    cases k with
    | zero => rfl
    | succ k =>
      have hm := List.mem_of_find?_eq_some hf
      have hb := List.find?_some hf
      rw [Bool.and_eq_true, currentObject_eq hs, currentObject_eq hs] at hb
      obtain ⟨x, hx, u, hu, _, _, _, hkey, htarget, hhash, hsame⟩ := hd.origin d hm
      have px : P (sectionObject s0 x) := by rw [← objectAt_mem hs0 hx]; exact hP _
      have pu : P (sectionObject s0 u) := by rw [← objectAt_mem hs0 hu]; exact hP _
      rw [htarget, behind, behind, objectAt_mem hs0 hu, ← hc.same s0 _ _ px pu hsame.2, ← objectAt_mem hs0 hx, ← hkey,
        ← h.objects d.key _ (blind_behind s0 k), ← h.objects r _ (blind_behind s0 k)]
      exact (hc.same s _ _ (h.good r) (h.good d.key) hb.2 _).symm

theorem redirect_blind {s : WSection} (h : Sim view P s0 s) (o : SObj) (f : Nat × Nat → Tree α) (hf : Blind view s0 f) :
    treeOfS view f (mapRefsS (redirect c s dups) o) = treeOfS view f o := by
  rw [treeOfS_map]
  exact treeOfS_congr view _ _ _ fun r _ => hf _ _ (redirect_alike hc hs0 hP hd h r)

theorem redirect_blind_entries {s : WSection} (h : Sim view P s0 s) (d : Dict) (f : Nat × Nat → Tree α) (hf : Blind view s0 f) :
    treeEntries view f (mapRefsEntries (redirect c s dups) d) = treeEntries view f d := by
  rw [treeEntries_map]
  exact treeEntries_congr view _ _ _ fun r _ => hf _ _ (redirect_alike hc hs0 hP hd h r)

theorem sim_step {s : WSection} (h : Sim view P s0 s) {e : WEntry} (he : e ∈ s0.entries) : Sim view P s0 (redirectEntry c dups s e) := by
  have hs := sorted_of_shape h.shape hs0
  have hex : ∃ x ∈ s.entries, x.num = e.num ∧ x.gen = e.gen := by
    obtain ⟨x, hx, h1, h2, _⟩ := mem_of_shape h.shape he
    exact ⟨x, hx, h1, h2⟩
  refine ⟨by rw [redirectEntry_own, h.own], by rw [redirectEntry_shape, h.shape], ?_, ?_, ?_⟩
  · intro r f hf
    rw [redirectEntry_object c dups hs hex]
    by_cases hr : r.1 = e.num
    · rw [if_pos hr, redirect_blind hc hs0 hP hd h _ f hf, h.objects r f hf]
    · rw [if_neg hr, h.objects r f hf]
  · intro f hf
    rcases redirectEntry_trailer c dups s e with ht | ht
    · rw [ht, h.trailer f hf]
    · rw [ht, redirect_blind_entries hc hs0 hP hd h _ f hf, h.trailer f hf]
  · intro r
    rw [redirectEntry_object c dups hs hex]
    by_cases hr : r.1 = e.num
    · rw [if_pos hr]; exact hc.closed _ _ (h.good r)
    · rw [if_neg hr]; exact h.good r

theorem sim_fold : ∀ (order : List WEntry) {s : WSection}, Sim view P s0 s → (∀ e ∈ order, e ∈ s0.entries) →
    Sim view P s0 (order.foldl (redirectEntry c dups) s) := by
  intro order
  induction order with
  | nil => intro s h _; exact h
  | cons e order ih =>
    intro s h ho
    exact ih (sim_step hc hs0 hP hd h (ho e List.mem_cons_self)) fun x hx => ho x (List.mem_cons_of_mem _ hx)

omit hc hs0 hP hd in
/-- The last step, the trailer. -/
theorem trailer_object (ρ : Nat × Nat → Nat × Nat) (s : WSection) (r : Nat × Nat) :
    objectAt { s with trailer := mapRefsEntries ρ s.trailer } r =
      if s.own = some r then mapRefsS ρ (objectAt s r) else objectAt s r := by
  rw [objectAt, objectAt]
  dsimp only
  by_cases ho : s.own = some r
  · rw [if_pos ho]
    cases s.entries.find? (fun e => e.num == r.1 && e.gen == r.2) with
    | none => rfl
    | some e => dsimp only; rw [if_pos ho, if_pos ho]; rfl
  · rw [if_neg ho]
    cases s.entries.find? (fun e => e.num == r.1 && e.gen == r.2) with
    | none => rfl
    | some e => dsimp only; rw [if_neg ho, if_neg ho]

theorem sim_all {order : List WEntry} (ho : ∀ e ∈ order, e ∈ s0.entries) : Sim view P s0 (redirectAll c dups s0 order) := by
  have h := sim_fold hc hs0 hP hd order (sim_refl (view := view) hP) ho
  rw [redirectAll]
  generalize order.foldl (redirectEntry c dups) s0 = s at h
  refine ⟨h.own, h.shape, ?_, ?_, ?_⟩
  · intro r f hf
    rw [trailer_object]
    by_cases hr : s.own = some r
    · rw [if_pos hr, redirect_blind hc hs0 hP hd h _ f hf, h.objects r f hf]
    · rw [if_neg hr, h.objects r f hf]
  · intro f hf
    dsimp only
    rw [redirect_blind_entries hc hs0 hP hd h _ f hf, h.trailer f hf]
  · intro r
    rw [trailer_object]
    by_cases hr : s.own = some r
    · rw [if_pos hr]; exact hc.closed _ _ (h.good r)
    · rw [if_neg hr]; exact h.good r

/-! ### No reference to a duplicate is left -/

end

/-- No other entry has the object behind `r`. -/
def NoTwin (c : Cmp) (s : WSection) (r : Nat × Nat) : Prop :=
  ∀ z ∈ s.entries, plainUsed z = true → (z.num, z.gen) ≠ r → ¬sameFor c s (objectAt s r) (sectionObject s z)

/-- Nothing below a duplicate has a duplicate; the cross-reference stream has none. -/
structure Regular (c : Cmp) (s : WSection) : Prop where
  flat : ∀ x ∈ s.entries, ∀ y ∈ s.entries, plainUsed x = true → plainUsed y = true → x.num ≠ y.num →
    sameFor c s (sectionObject s x) (sectionObject s y) → ∀ r, Below s (x.num, x.gen) r → NoTwin c s r
  own : ∀ r, s.own = some r → ∃ e ∈ s.entries, (e.num, e.gen) = r ∧ e.inUse = true ∧
    ∀ z ∈ s.entries, plainUsed z = true → z.num ≠ e.num → ¬sameFor c s (sectionObject s e) (sectionObject s z)

theorem below_trans {s : WSection} {r q : Nat × Nat} (hq : MentionsS q (objectAt s r)) {x : Nat × Nat} (h : Below s q x) : Below s r x := by
  induction h with
  | here x hx => exact .next q x (.here q hq) hx
  | next x y _ hy ih => exact .next x y ih hy

section
variable {α : Type} {view : Obj → α} {c : Cmp} {P : SObj → Prop} (hc : Honest c view P) {s0 : WSection}
  (hs0 : s0.entries.Pairwise fun a b => a.num < b.num)
  (hP : ∀ r, P (objectAt s0 r)) {dups : List Dup} (hd : DupsOk c s0 s0.entries dups) (hr : Regular c s0)
include hc hs0 hP hd hr

/-- The state while references are redirected, the entries in `done` being finished. -/
structure Clean (c : Cmp) (dups : List Dup) (s0 s : WSection) (done : List WEntry) : Prop where
  shape : s.entries.map shape = s0.entries.map shape
  good : ∀ r, P (objectAt s r)
  calm : ∀ r, (∀ q, Below s0 r q → NoTwin c s0 q) → objectAt s r = objectAt s0 r
  clean : ∀ e ∈ done, ∀ q ∈ refsS (objectAt s (e.num, e.gen)), ∀ d ∈ dups, q ≠ d.key

theorem clean_keys {s : WSection} {done : List WEntry} (h : Clean (P := P) c dups s0 s done) :
    ∀ d ∈ dups, objectAt s d.key = objectAt s0 d.key := by
  intro d hdm
  obtain ⟨x, hx, u, hu, hxu, hpx, hpu, hkey, _, _, hsame⟩ := hd.origin d hdm
  apply h.calm
  rw [hkey]
  exact hr.flat x hx u hu hpx hpu hxu hsame

theorem redirect_clean {s : WSection} {done : List WEntry} (h : Clean (P := P) c dups s0 s done) (r : Nat × Nat) :
    ∀ d ∈ dups, redirect c s dups r ≠ d.key := by
  have hs := sorted_of_shape h.shape hs0
  intro d hdm
  rw [redirect]
  cases hf : findDup c s dups (currentObject s r) with
  | some d' =>
    intro he
    exact hd.apart d' (List.mem_of_find?_eq_some hf) d hdm (congrArg Prod.fst he)
  | none =>
    dsimp only
    rintro rfl
    obtain ⟨x, hx, u, hu, _, _, _, hkey, _, hhash, _⟩ := hd.origin d hdm
    have := List.find?_eq_none.mp hf d hdm
    rw [currentObject_eq hs] at this
    have h1 : objectAt s d.key = sectionObject s0 x := by
      rw [clean_keys hc hs0 hP hd hr h d hdm, hkey, objectAt_mem hs0 hx]
    rw [hc.refl s _ (h.good _), h1, hhash] at this
    simp at this

theorem redirect_calm {s : WSection} {done : List WEntry} (h : Clean (P := P) c dups s0 s done) {p : Nat × Nat}
    (hp : ∀ q, Below s0 p q → NoTwin c s0 q) : mapRefsS (redirect c s dups) (objectAt s0 p) = objectAt s0 p := by
  have hs := sorted_of_shape h.shape hs0
  apply mapRefsS_id
  intro r hrm
  have hm := (refsS_iff _ _).mp hrm
  have h2 := hp r (.here r hm)
  have hleaf : objectAt s r = objectAt s0 r := h.calm r fun q hq => hp q (below_trans hm hq)
  rw [redirect]
  cases hf : findDup c s dups (currentObject s r) with
  | none => rfl
  | some d' =>
    exfalso
    have hm := List.mem_of_find?_eq_some hf
    have hb := List.find?_some hf
    rw [Bool.and_eq_true, currentObject_eq hs, currentObject_eq hs, hleaf, clean_keys hc hs0 hP hd hr h d' hm] at hb
    obtain ⟨x', hx', u', hu', hxu', hpx', hpu', hkey', _, hhash', hsame'⟩ := hd.origin d' hm
    rw [hkey', objectAt_mem hs0 hx'] at hb
    have pr := hP r
    have px : P (sectionObject s0 x') := by rw [← objectAt_mem hs0 hx']; exact hP _
    have hsm : sameFor c s0 (objectAt s0 r) (sectionObject s0 x') :=
      ⟨by have := hb.1; rw [hhash'] at this; simpa using this, by rw [hc.fixed s0 s _ _ pr px]; exact hb.2⟩
    by_cases hxr : (x'.num, x'.gen) = r
    · subst hxr
      have h3 := h2 u' hu' hpu' (fun he => hxu' (congrArg Prod.fst he).symm)
      rw [objectAt_mem hs0 hx'] at h3
      exact h3 hsame'
    · exact h2 x' hx' hpx' hxr hsm

theorem clean_step {s : WSection} {done : List WEntry} (h : Clean (P := P) c dups s0 s done) {e : WEntry} (he : e ∈ s0.entries) :
    Clean (P := P) c dups s0 (redirectEntry c dups s e) (e :: done) := by
  have hs := sorted_of_shape h.shape hs0
  have hex : ∃ x ∈ s.entries, x.num = e.num ∧ x.gen = e.gen := by
    obtain ⟨x, hx, h1, h2, _⟩ := mem_of_shape h.shape he
    exact ⟨x, hx, h1, h2⟩
  have hobj := redirectEntry_object c dups hs hex
  refine ⟨by rw [redirectEntry_shape, h.shape], ?_, ?_, ?_⟩
  · intro r
    rw [hobj]
    by_cases hre : r.1 = e.num
    · rw [if_pos hre]; exact hc.closed _ _ (h.good r)
    · rw [if_neg hre]; exact h.good r
  · intro r hl
    rw [hobj, h.calm r hl, redirect_calm hc hs0 hP hd hr h hl]
    by_cases hre : r.1 = e.num
    · rw [if_pos hre]
    · rw [if_neg hre]
  · intro x hx q hq d hdm
    rw [hobj] at hq
    dsimp only at hq
    by_cases hxe : x.num = e.num
    · rw [if_pos hxe, refsS_map] at hq
      obtain ⟨r, _, rfl⟩ := List.mem_map.mp hq
      exact redirect_clean hc hs0 hP hd hr h r d hdm
    · rw [if_neg hxe] at hq
      rcases List.mem_cons.mp hx with rfl | hx
      · exact absurd rfl hxe
      · exact h.clean x hx q hq d hdm

theorem clean_fold : ∀ (order : List WEntry) {s : WSection} {done : List WEntry}, Clean (P := P) c dups s0 s done →
    (∀ e ∈ order, e ∈ s0.entries) →
    Clean (P := P) c dups s0 (order.foldl (redirectEntry c dups) s) (order.reverse ++ done) := by
  intro order
  induction order with
  | nil => intro s done h _; exact h
  | cons e order ih =>
    intro s done h ho
    have := ih (clean_step hc hs0 hP hd hr h (ho e List.mem_cons_self)) fun x hx => ho x (List.mem_cons_of_mem _ hx)
    rw [List.reverse_cons, List.append_assoc]
    exact this

/-- After the redirection nothing refers to a duplicate. -/
theorem redirectAll_clean {order : List WEntry} (ho : ∀ e, e ∈ order ↔ e ∈ s0.entries) :
    (∀ q ∈ refsEntries (redirectAll c dups s0 order).trailer, ∀ d ∈ dups, q ≠ d.key) ∧
    ∀ r, ∀ q ∈ refsS (objectAt (redirectAll c dups s0 order) r), ∀ d ∈ dups, q ≠ d.key := by
  have h0 : Clean (P := P) c dups s0 s0 [] := ⟨rfl, hP, fun _ _ => rfl, by simp⟩
  have h := clean_fold hc hs0 hP hd hr order h0 fun e he => (ho e).mp he
  rw [redirectAll]
  generalize order.foldl (redirectEntry c dups) s0 = s at h
  constructor
  · intro q hq
    dsimp only at hq
    rw [refsEntries_map] at hq
    obtain ⟨r, _, rfl⟩ := List.mem_map.mp hq
    exact redirect_clean hc hs0 hP hd hr h r
  · intro r q hq
    rw [trailer_object] at hq
    by_cases hown : s.own = some r
    · rw [if_pos hown, refsS_map] at hq
      obtain ⟨r, _, rfl⟩ := List.mem_map.mp hq
      exact redirect_clean hc hs0 hP hd hr h r
    · rw [if_neg hown] at hq
      by_cases hex : ∃ x ∈ s0.entries, (x.num, x.gen) = r
      · obtain ⟨x, hx, rfl⟩ := hex
        exact h.clean x (List.mem_append_left _ (List.mem_reverse.mpr ((ho x).mpr hx))) q hq
      · rw [objectAt_none (by
          intro x hx hxx
          obtain ⟨z, hz, hzn, hzg, _⟩ := mem_of_shape h.shape.symm hx
          exact hex ⟨z, hz, by rw [hzn, hzg, hxx.1, hxx.2]⟩)] at hq
        simp [refsS, refsOf] at hq

/-! ### The release of the duplicates -/

theorem own_no_key {d : Dup} (hdm : d ∈ dups) (r : Nat × Nat) (hown : s0.own = some r) : d.key.1 ≠ r.1 := by
  obtain ⟨x, hx, u, hu, hxu, _, hpu, hkey, _, _, hsame⟩ := hd.origin d hdm
  obtain ⟨e, he, her, _, hno⟩ := hr.own r hown
  intro h
  have : x = e := sorted_entry_unique hs0 hx he (by rw [hkey] at h; rw [← her] at h; exact h)
  subst this
  exact hno u hu hpu (fun hh => hxu hh.symm) hsame

theorem release_object {order : List WEntry} (ho : ∀ e, e ∈ order ↔ e ∈ s0.entries) {r : Nat × Nat} (hk : ∀ d ∈ dups, r ≠ d.key) :
    objectAt (releaseDups dups (redirectAll c dups s0 order)) r = objectAt (redirectAll c dups s0 order) r := by
  have h := sim_all hc hs0 hP hd (order := order) fun e he => (ho e).mp he
  generalize redirectAll c dups s0 order = s at h
  have hs := sorted_of_shape h.shape hs0
  have hnum : ∀ x : WEntry, (if dups.any (fun d => d.key.1 == x.num) then (⟨x.num, 0, .free 0⟩ : WEntry) else x).num = x.num := by
    intro x
    by_cases hx : dups.any (fun d => d.key.1 == x.num) = true
    · rw [if_pos hx]
    · rw [if_neg hx]
  have hs' : (releaseDups dups s).entries.Pairwise fun a b => a.num < b.num := by
    rw [releaseDups]
    refine List.pairwise_map.mpr ?_
    simp only [hnum]
    exact hs
  by_cases hex : ∃ x ∈ s.entries, (x.num, x.gen) = r
  · obtain ⟨x, hx, rfl⟩ := hex
    have hno : ¬ dups.any (fun d => d.key.1 == x.num) = true := by
      intro hany
      obtain ⟨d, hdm, hdx⟩ := List.any_eq_true.mp hany
      have hdx' : d.key.1 = x.num := by simpa using hdx
      obtain ⟨y, hy, u, hu, _, _, _, hkey, _⟩ := hd.origin d hdm
      obtain ⟨z, hz, hzn, hzg, _⟩ := mem_of_shape h.shape hy
      have : z = x := sorted_entry_unique hs hz hx (by rw [hzn, ← hdx', hkey])
      subst this
      exact hk d hdm (by rw [hkey, hzn, hzg])
    have hx' : x ∈ (releaseDups dups s).entries := by
      rw [releaseDups]
      exact List.mem_map.mpr ⟨x, hx, by rw [if_neg hno]⟩
    rw [objectAt_mem hs hx, objectAt_mem hs' hx']
    rfl
  · rw [objectAt_none (s := s) (by intro x hx hxx; exact hex ⟨x, hx, by rw [hxx.1, hxx.2]⟩)]
    by_cases hex' : ∃ x ∈ (releaseDups dups s).entries, (x.num, x.gen) = r
    · obtain ⟨x, hx, rfl⟩ := hex'
      rw [objectAt_mem hs' hx]
      have hx2 := hx
      rw [releaseDups] at hx2
      obtain ⟨y, hy, hyx⟩ := List.mem_map.mp hx2
      by_cases hany : dups.any (fun d => d.key.1 == y.num) = true
      · rw [if_pos hany] at hyx
        obtain ⟨d, hdm, hdx⟩ := List.any_eq_true.mp hany
        rw [sectionObject_eq, if_neg]
        · rw [← hyx]; rfl
        · intro hown
          have h1 : s0.own = some (x.num, x.gen) := by rw [← h.own]; exact hown
          refine own_no_key hc hs0 hP hd hr hdm _ h1 ?_
          rw [← hyx]
          simpa using hdx
      · rw [if_neg hany] at hyx
        subst hyx
        exact absurd ⟨y, hy, rfl⟩ hex
    · exact objectAt_none (by intro x hx hxx; exact hex' ⟨x, hx, by rw [hxx.1, hxx.2]⟩)

/-- One round keeps what is seen. -/
theorem round_seen {order : List WEntry} (ho : ∀ e, e ∈ order ↔ e ∈ s0.entries) (k : Nat) :
    seen view (releaseDups dups (redirectAll c dups s0 order)) k = seen view s0 k := by
  obtain ⟨hclean1, hclean2⟩ := redirectAll_clean hc hs0 hP hd hr ho
  have h := sim_all hc hs0 hP hd (order := order) fun e he => (ho e).mp he
  rw [← sim_seen h k, seen, seen]
  have ht : (releaseDups dups (redirectAll c dups s0 order)).trailer = (redirectAll c dups s0 order).trailer := rfl
  rw [ht]
  apply treeEntries_congr
  intro r hrm
  exact behind_rename view _ _ id (fun r => ∀ d ∈ dups, r ≠ d.key)
    (fun r _ q hq => hclean2 r q hq)
    (fun r hk => by rw [id, release_object hc hs0 hP hd hr ho hk, mapRefsS_id id _ (fun _ _ => rfl)]) k r (hclean1 r hrm)

theorem round_good {order : List WEntry} (ho : ∀ e, e ∈ order ↔ e ∈ s0.entries) :
    ∀ r, P (objectAt (releaseDups dups (redirectAll c dups s0 order)) r) := by
  have h := sim_all hc hs0 hP hd (order := order) fun e he => (ho e).mp he
  intro r
  by_cases hk : ∀ d ∈ dups, r ≠ d.key
  · rw [release_object hc hs0 hP hd hr ho hk]; exact h.good r
  · have hk' : ∃ d ∈ dups, r = d.key := by
      by_cases h' : ∃ d ∈ dups, r = d.key
      · exact h'
      · exact absurd (fun d hd he => h' ⟨d, hd, he⟩) hk
    obtain ⟨d, hdm, rfl⟩ := hk'
    have : objectAt (releaseDups dups (redirectAll c dups s0 order)) d.key = .direct .null := by
      have hown : (releaseDups dups (redirectAll c dups s0 order)).own = s0.own := h.own
      rw [objectAt]
      cases hf : (releaseDups dups (redirectAll c dups s0 order)).entries.find? (fun e => e.num == d.key.1 && e.gen == d.key.2) with
      | none => rfl
      | some e =>
        dsimp only
        rw [if_neg (by rw [hown]; exact fun hh => own_no_key hc hs0 hP hd hr hdm _ hh rfl)]
        have hm := List.mem_of_find?_eq_some hf
        have hb := List.find?_some hf
        rw [Bool.and_eq_true] at hb
        rw [releaseDups] at hm
        obtain ⟨y, hy, hyx⟩ := List.mem_map.mp hm
        by_cases hany : dups.any (fun d => d.key.1 == y.num) = true
        · rw [if_pos hany] at hyx; rw [← hyx]; rfl
        · rw [if_neg hany] at hyx
          subst hyx
          have he : y.num = d.key.1 := by simpa using hb.1
          exact absurd (List.any_eq_true.mpr ⟨d, hdm, by rw [he]; exact beq_self_eq_true _⟩) hany
    rw [this]
    exact hc.null

end

/-! ### All rounds -/

/-- The section `t` is met on the way. -/
inductive Rounds (c : Cmp) (order : WSection → List WEntry) (s : WSection) : WSection → Prop where
  | start : Rounds c order s s
  | next (t t' : WSection) : Rounds c order s t → removeDupsOnce c order t = some t' → Rounds c order s t'

theorem rounds_trans {c : Cmp} {order : WSection → List WEntry} {s t u : WSection} (h1 : Rounds c order s t) (h2 : Rounds c order t u) :
    Rounds c order s u := by
  induction h2 with
  | start => exact h1
  | next t t' _ h ih => exact .next _ _ ih h

section
variable {c : Cmp} {order : WSection → List WEntry} (hord : ∀ s, (order s).Perm s.entries)
include hord

theorem dupsOk_order {s : WSection} (hs : s.entries.Pairwise fun a b => a.num < b.num) :
    DupsOk c s s.entries (findDups c s (order s) [] []) := by
  refine findDups_ok c s s.entries (order s) [] [] (fun e he => (hord s).mem_iff.mp he) (by simp) ?_ (by simp) (by simp) (by simp) (by simp)
  refine ((hord s).map WEntry.num).nodup_iff.mpr ?_
  have : (s.entries.map WEntry.num).Pairwise (· < ·) := List.pairwise_map.mpr hs
  exact this.imp fun h => Nat.ne_of_lt h

theorem removeDupsOnce_some {s t : WSection} (h : removeDupsOnce c order s = some t) :
    ∃ dups, dups ≠ [] ∧ findDups c s (order s) [] [] = dups ∧ t = releaseDups dups (redirectAll c dups s (order s)) := by
  rw [removeDupsOnce] at h
  cases hf : findDups c s (order s) [] [] with
  | nil => rw [hf] at h; cases h
  | cons d l =>
    rw [hf] at h
    injection h with h
    exact ⟨d :: l, by simp, rfl, h.symm⟩

theorem redirectFold_shape (dups : List Dup) : ∀ (es : List WEntry) (s : WSection),
    (es.foldl (redirectEntry c dups) s).entries.map shape = s.entries.map shape := by
  intro es
  induction es with
  | nil => intro s; rfl
  | cons e es ih => intro s; rw [List.foldl_cons, ih, redirectEntry_shape]

theorem redirectFold_own (dups : List Dup) : ∀ (es : List WEntry) (s : WSection),
    (es.foldl (redirectEntry c dups) s).own = s.own := by
  intro es
  induction es with
  | nil => intro s; rfl
  | cons e es ih => intro s; rw [List.foldl_cons, ih, redirectEntry_own]

theorem redirectAll_shape (dups : List Dup) (es : List WEntry) (s : WSection) :
    (redirectAll c dups s es).entries.map shape = s.entries.map shape := redirectFold_shape hord dups es s

theorem releaseDups_num (dups : List Dup) (s : WSection) : (releaseDups dups s).entries.map WEntry.num = s.entries.map WEntry.num := by
  rw [releaseDups, List.map_map]
  apply List.map_congr_left
  intro x _
  rw [Function.comp]
  by_cases hx : dups.any (fun d => d.key.1 == x.num) = true
  · rw [if_pos hx]
  · rw [if_neg hx]

theorem sorted_of_num {l l' : List WEntry} (h : l'.map WEntry.num = l.map WEntry.num) (hs : l.Pairwise fun a b => a.num < b.num) :
    l'.Pairwise fun a b => a.num < b.num := by
  have h1 : (l.map WEntry.num).Pairwise (· < ·) := List.pairwise_map.mpr hs
  rw [← h] at h1
  have h2 := List.pairwise_map.mp h1
  exact h2

theorem removeDupsOnce_sorted {s t : WSection} (hs : s.entries.Pairwise fun a b => a.num < b.num) (h : removeDupsOnce c order s = some t) :
    t.entries.Pairwise fun a b => a.num < b.num := by
  obtain ⟨dups, _, _, rfl⟩ := removeDupsOnce_some hord h
  exact sorted_of_num hord (releaseDups_num hord dups _) (sorted_of_shape (redirectAll_shape hord dups _ s) hs)

/-- Entries in use. -/
def usedCount (s : WSection) : Nat := (s.entries.filter WEntry.inUse).length

theorem usedCount_shape {s s' : WSection} (h : s'.entries.map shape = s.entries.map shape) : usedCount s' = usedCount s := by
  have : ∀ l : List WEntry, (l.filter WEntry.inUse).length = ((l.map shape).filter fun x => x.2.2).length := by
    intro l
    rw [List.filter_map, List.length_map]
    rfl
  rw [usedCount, usedCount, this, this, h]

theorem plainUsed_inUse {e : WEntry} (h : plainUsed e = true) : e.inUse = true := by
  obtain ⟨n, g, k⟩ := e
  cases k with
  | free a => cases h
  | compressed a b o => cases h
  | used off o =>
    cases o with
    | none => cases h
    | some o => rfl

theorem release_count (dups : List Dup) : ∀ (l : List WEntry),
    ((l.map fun e => if dups.any (fun d => d.key.1 == e.num) then (⟨e.num, 0, .free 0⟩ : WEntry) else e).filter WEntry.inUse).length ≤
      (l.filter WEntry.inUse).length ∧
    ((∃ e ∈ l, e.inUse = true ∧ dups.any (fun d => d.key.1 == e.num) = true) →
    ((l.map fun e => if dups.any (fun d => d.key.1 == e.num) then (⟨e.num, 0, .free 0⟩ : WEntry) else e).filter WEntry.inUse).length <
      (l.filter WEntry.inUse).length) := by
  intro l
  induction l with
  | nil => simp
  | cons x l ih =>
    obtain ⟨ih1, ih2⟩ := ih
    rw [List.map_cons]
    by_cases hx : dups.any (fun d => d.key.1 == x.num) = true
    · rw [if_pos hx, List.filter_cons_of_neg (by simp [WEntry.inUse])]
      cases hu : x.inUse with
      | true =>
        rw [List.filter_cons_of_pos hu, List.length_cons]
        exact ⟨by omega, fun _ => by omega⟩
      | false =>
        rw [List.filter_cons_of_neg (by simp [hu])]
        refine ⟨ih1, ?_⟩
        rintro ⟨e, he, h1, h2⟩
        rcases List.mem_cons.mp he with rfl | he
        · rw [hu] at h1; cases h1
        · exact ih2 ⟨e, he, h1, h2⟩
    · rw [if_neg hx]
      cases hu : x.inUse with
      | true =>
        rw [List.filter_cons_of_pos hu, List.filter_cons_of_pos hu, List.length_cons, List.length_cons]
        refine ⟨by omega, ?_⟩
        rintro ⟨e, he, h1, h2⟩
        rcases List.mem_cons.mp he with rfl | he
        · exact absurd h2 hx
        · have := ih2 ⟨e, he, h1, h2⟩; omega
      | false =>
        rw [List.filter_cons_of_neg (by simp [hu]), List.filter_cons_of_neg (by simp [hu])]
        refine ⟨ih1, ?_⟩
        rintro ⟨e, he, h1, h2⟩
        rcases List.mem_cons.mp he with rfl | he
        · exact absurd h2 hx
        · exact ih2 ⟨e, he, h1, h2⟩

theorem removeDupsOnce_count {s t : WSection} (hs : s.entries.Pairwise fun a b => a.num < b.num) (h : removeDupsOnce c order s = some t) :
    usedCount t < usedCount s := by
  obtain ⟨dups, hne, hf, rfl⟩ := removeDupsOnce_some hord h
  have hsh := redirectAll_shape (c := c) hord dups (order s) s
  rw [← usedCount_shape hord hsh]
  apply (release_count hord dups _).2
  cases hd : dups with
  | nil => exact absurd hd hne
  | cons d l =>
    have hok := dupsOk_order (c := c) hord hs
    rw [hf, hd] at hok
    obtain ⟨x, hx, u, hu, _, hp, _, hkey, _⟩ := hok.origin d List.mem_cons_self
    obtain ⟨y, hy, hyn, _, hyu⟩ := mem_of_shape hsh hx
    rw [hd] at hy
    refine ⟨y, hy, by rw [hyu]; exact plainUsed_inUse hord hp, ?_⟩
    refine List.any_eq_true.mpr ⟨d, List.mem_cons_self, ?_⟩
    rw [hkey, hyn]
    exact beq_self_eq_true _

theorem removeDupsLoop_none : ∀ f (s : WSection), (s.entries.Pairwise fun a b => a.num < b.num) → usedCount s < f →
    removeDupsOnce c order (removeDupsLoop c order f s) = none ∧ Rounds c order s (removeDupsLoop c order f s) := by
  intro f
  induction f with
  | zero => intro s _ h; omega
  | succ f ih =>
    intro s hs hf
    rw [removeDupsLoop]
    cases h : removeDupsOnce c order s with
    | none => exact ⟨h, .start⟩
    | some t =>
      have := removeDupsOnce_count hord hs h
      obtain ⟨h1, h2⟩ := ih t (removeDupsOnce_sorted hord hs h) (by omega)
      exact ⟨h1, rounds_trans (.next _ _ .start h) h2⟩

/-- At the end there are no duplicates. -/
theorem removeDups_none {s : WSection} (hs : s.entries.Pairwise fun a b => a.num < b.num) :
    removeDupsOnce c order (removeDups c order s) = none ∧ Rounds c order s (removeDups c order s) := by
  refine removeDupsLoop_none hord _ s hs ?_
  have : (s.entries.filter WEntry.inUse).length ≤ s.entries.length := List.length_filter_le _ _
  rw [usedCount]
  omega

theorem rounds_sorted {s t : WSection} (hs : s.entries.Pairwise fun a b => a.num < b.num) (h : Rounds c order s t) :
    t.entries.Pairwise fun a b => a.num < b.num := by
  induction h with
  | start => exact hs
  | next t t' _ h ih => exact removeDupsOnce_sorted hord ih h

theorem rounds_seen {α : Type} {view : Obj → α} {P : SObj → Prop} (hc : Honest c view P) {s t : WSection}
    (hs : s.entries.Pairwise fun a b => a.num < b.num) (hP : ∀ r, P (objectAt s r)) (h : Rounds c order s t)
    (hr : ∀ u, Rounds c order s u → Regular c u) : (∀ k, seen view t k = seen view s k) ∧ ∀ r, P (objectAt t r) := by
  induction h with
  | start => exact ⟨fun _ => rfl, hP⟩
  | next t t' hst h ih =>
    obtain ⟨ih1, ih2⟩ := ih
    have hst' := rounds_sorted hord hs hst
    obtain ⟨dups, _, hf, rfl⟩ := removeDupsOnce_some hord h
    have hok := dupsOk_order (c := c) hord hst'
    rw [hf] at hok
    exact ⟨fun k => by rw [round_seen hc hst' ih2 hok (hr t hst) (fun e => (hord t).mem_iff) k, ih1 k],
      round_good hc hst' ih2 hok (hr t hst) fun e => (hord t).mem_iff⟩

theorem rounds_own {s t : WSection} (h : Rounds c order s t) : t.own = s.own := by
  induction h with
  | start => rfl
  | next t t' _ h ih =>
    obtain ⟨dups, _, _, rfl⟩ := removeDupsOnce_some hord h
    rw [← ih]
    exact redirectFold_own hord dups _ t

end

end VPdf
