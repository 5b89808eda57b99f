import Verif.Spec.References
import Mathlib.Data.List.Perm.Subperm
/-
  Chains of reference objects that remember what they refer to.
-/
namespace VPdf
open Spec

theorem chainEnds_unique {objs : Objects} {n : Nat} {k : Nat × Nat} {v : PObj} (h : ChainEnds objs n k v) :
    ∀ {n' v'}, ChainEnds objs n' k v' → n' = n ∧ v' = v := by
  induction h with
  | last hv hn =>
    intro n' v' h'
    cases h' with
    | last hv' _ => exact ⟨rfl, hv'.symm.trans hv⟩
    | step hr _ => exact absurd (hv.symm.trans hr) (hn _ _)
  | step hr _ ih =>
    intro n' v' h'
    cases h' with
    | last hv' hn' => exact absurd (hv'.symm.trans hr) (hn' _ _)
    | step hr' hc' =>
      have := hr.symm.trans hr'
      injection this with this
      injection this with e1 e2
      have : (_ : Nat × Nat) = _ := Prod.ext e1 e2
      subst this
      obtain ⟨a, b⟩ := ih hc'
      exact ⟨by rw [a], b⟩

/-- `self` follows the chains with fewer than `m` references. -/
def ChainFollows (objs : Objects) (self : Remembers → RefObject → List RefCopy → Res PObj × Remembers) (m : Nat) : Prop :=
  ∀ s r j v, j < m → ChainEnds objs j r.dest v → (self s r []).1 = .ok v

theorem isInitialized_ends {objs : Objects} {self} {m : Nat} (hs : ChainFollows objs self m) {j : Nat} {dest : Nat × Nat} {v : PObj}
    (hj : j ≤ m) (hc : ChainEnds objs j dest v) (s : Remembers) (b : Bool) : ∃ a s', isInitialized self objs s b dest = (.ok a, s') := by
  unfold isInitialized
  split
  · exact ⟨_, _, rfl⟩
  · split
    · exact ⟨_, _, rfl⟩
    · rename_i n g hg
      cases hc with
      | last hv hn => exact absurd (hv.symm.trans hg) (hn _ _)
      | step hr hc' =>
        have := hg.symm.trans hr
        injection this with this
        injection this with e1 e2
        subst e1 e2
        have h := hs s ⟨.object dest, _⟩ _ _ (by omega) hc'
        rcases he : self s ⟨.object dest, _⟩ [] with ⟨o, s'⟩
        rw [he] at h
        subst h
        by_cases hn : v = .direct .null
        · subst hn; exact ⟨_, _, rfl⟩
        · refine ⟨true, s', ?_⟩
          cases v with
          | direct o => cases o <;> first | rfl | exact absurd rfl hn
          | _ => rfl
    · exact ⟨_, _, rfl⟩

theorem refNumber_ends {objs : Objects} {self} {m : Nat} (hs : ChainFollows objs self m) {j : Nat} {dest : Nat × Nat} {v : PObj}
    (hj : j ≤ m) (hc : ChainEnds objs j dest v) (s : Remembers) (b : Bool) : ∃ s', refNumber self objs s b dest = (.ok (), s') := by
  unfold refNumber
  obtain ⟨a, s1, h1⟩ := isInitialized_ends hs hj hc s b
  rw [h1]
  cases a with
  | false => exact ⟨_, rfl⟩
  | true =>
    obtain ⟨a, s2, h2⟩ := isInitialized_ends hs hj hc s1 b
    dsimp only
    rw [h2]
    exact ⟨_, rfl⟩

theorem compareKeys_ends {objs : Objects} {self} {m : Nat} (hs : ChainFollows objs self m) {j : Nat} {r : RefObject} {v : PObj}
    (hj : j ≤ m) (hc : ChainEnds objs j r.dest v) (l : List RefCopy) (hl : ∀ c ∈ l, ∃ i w, i ≤ m ∧ ChainEnds objs i c.dest w) :
    ∀ s, ∃ s', compareKeys self objs r s l = (.ok (), s') := by
  induction l with
  | nil => intro s; exact ⟨_, rfl⟩
  | cons c l ih =>
    intro s
    unfold compareKeys
    obtain ⟨s1, h1⟩ := refNumber_ends hs hj hc s (s r.name)
    obtain ⟨i, w, hi, hw⟩ := hl c (by simp)
    obtain ⟨s2, h2⟩ := refNumber_ends hs hi hw s1 c.remembers
    rw [h1]
    dsimp only
    rw [h2]
    exact ih (fun c hc => hl c (by simp [hc])) s2

theorem referencedObject_ends {objs : Objects} {self} {m : Nat} (hs : ChainFollows objs self m) {j : Nat} {r : RefObject} {v : PObj}
    (hj : j ≤ m) (hc : ChainEnds objs j r.dest v) (s : Remembers) :
    ∃ s', referencedObject self objs s r = (.ok (getIndirect objs r.dest.1 r.dest.2), s') := by
  unfold referencedObject
  obtain ⟨a, s1, h1⟩ := isInitialized_ends hs hj hc s (s r.name)
  rw [h1]
  cases a with
  | true => exact ⟨_, rfl⟩
  | false =>
    dsimp only
    obtain ⟨a, s2, h2⟩ := isInitialized_ends hs hj hc s1 (s1 r.name)
    rw [h2]
    cases a with
    | true => exact ⟨_, rfl⟩
    | false => exact ⟨_, rfl⟩

/-- The end of a chain is reached, also with references in `visited` that come earlier in it. -/
theorem derefKept_inner {objs : Objects} {m N : Nat} (hN : ∀ f, N ≤ f → ChainFollows objs (derefKept objs f) m) (n : Nat) :
    ∀ (f : Nat) (s : Remembers) (r : RefObject) (visited : List RefCopy) (v : PObj), n ≤ m → N + n + 1 ≤ f →
      ChainEnds objs n r.dest v → (∀ c ∈ visited, ∃ i w, n < i ∧ i ≤ m ∧ ChainEnds objs i c.dest w) →
      (derefKept objs f s r visited).1 = .ok v := by
  induction n with
  | zero =>
    intro f s r visited v hm hf hc hv
    obtain ⟨f, rfl⟩ : ∃ g, f = g + 1 := ⟨f - 1, by omega⟩
    have hs := hN f (by omega)
    have hl : ∀ c ∈ visited, ∃ i w, i ≤ m ∧ ChainEnds objs i c.dest w := fun c hc => by
      obtain ⟨i, w, _, h1, h2⟩ := hv c hc; exact ⟨i, w, h1, h2⟩
    have hany : visited.any (fun c => c.dest == r.dest) = false := by
      rw [List.any_eq_false]
      intro c hcv he
      obtain ⟨i, w, h0, _, h2⟩ := hv c hcv
      have : c.dest = r.dest := by simpa using he
      rw [this] at h2
      have := (chainEnds_unique hc h2).1
      omega
    rw [derefKept]
    obtain ⟨s1, h1⟩ := compareKeys_ends hs (Nat.zero_le m) hc visited hl s
    rw [h1]
    dsimp only
    rw [if_neg (by rw [hany]; simp)]
    obtain ⟨s2, h2⟩ := compareKeys_ends hs (Nat.zero_le m) hc visited hl s1
    rw [h2]
    dsimp only
    obtain ⟨s3, h3⟩ := referencedObject_ends hs (Nat.zero_le m) hc s2
    rw [h3]
    cases hc with
    | last hg hn =>
      rw [hg]
      cases v with
      | direct o => cases o <;> first | rfl | exact absurd rfl (hn _ _)
      | _ => rfl
  | succ n ih =>
    intro f s r visited v hm hf hc hv
    obtain ⟨f, rfl⟩ : ∃ g, f = g + 1 := ⟨f - 1, by omega⟩
    have hs := hN f (by omega)
    have hl : ∀ c ∈ visited, ∃ i w, i ≤ m ∧ ChainEnds objs i c.dest w := fun c hc => by
      obtain ⟨i, w, _, h1, h2⟩ := hv c hc; exact ⟨i, w, h1, h2⟩
    have hany : visited.any (fun c => c.dest == r.dest) = false := by
      rw [List.any_eq_false]
      intro c hcv he
      obtain ⟨i, w, h0, _, h2⟩ := hv c hcv
      have : c.dest = r.dest := by simpa using he
      rw [this] at h2
      have := (chainEnds_unique hc h2).1
      omega
    rw [derefKept]
    obtain ⟨s1, h1⟩ := compareKeys_ends hs hm hc visited hl s
    rw [h1]
    dsimp only
    rw [if_neg (by rw [hany]; simp)]
    obtain ⟨s2, h2⟩ := compareKeys_ends hs hm hc visited hl s1
    rw [h2]
    dsimp only
    obtain ⟨s3, h3⟩ := referencedObject_ends hs hm hc s2
    rw [h3]
    have hc0 := hc
    cases hc with
    | step hr hc' =>
      rw [hr]
      dsimp only
      refine ih f s3 _ _ v (by omega) (by omega) hc' ?_
      intro c hc
      rcases List.mem_cons.1 hc with rfl | hc
      · exact ⟨n + 1, v, by omega, hm, hc0⟩
      · obtain ⟨i, w, a, b, d⟩ := hv c hc
        exact ⟨i, w, by omega, b, d⟩

theorem derefKept_follows (objs : Objects) (m : Nat) : ∃ N, ∀ f, N ≤ f → ChainFollows objs (derefKept objs f) m := by
  induction m with
  | zero => exact ⟨0, fun f _ s r j v hj => absurd hj (by omega)⟩
  | succ m ih =>
    obtain ⟨N, hN⟩ := ih
    refine ⟨N + m + 1, fun f hf s r j v hj hc => ?_⟩
    exact derefKept_inner hN j f s r [] v (by omega) (by omega) hc (fun c hc => by cases hc)

theorem deref_ends {objs : Objects} {n : Nat} {k : Nat × Nat} {v : PObj} (h : ChainEnds objs n k v) :
    ∀ (f : Nat) (visited : List (Nat × Nat)), n + 2 ≤ f → (∀ c ∈ visited, ∃ i w, n < i ∧ ChainEnds objs i c w) →
      deref objs f visited (.direct (.ref k.1 k.2)) = .ok v := by
  induction h with
  | @last k v hv hn =>
    intro f visited hf hvis
    obtain ⟨f, rfl⟩ : ∃ g, f = g + 2 := ⟨f - 2, by omega⟩
    rw [show f + 2 = (f + 1) + 1 from rfl, deref, if_neg, hv]
    · rw [deref.eq_def]
      cases v with
      | direct o => cases o <;> first | rfl | exact absurd rfl (hn _ _)
      | _ => rfl
    · intro hm
      obtain ⟨i, w, hi, hw⟩ := hvis _ hm
      have := (chainEnds_unique (ChainEnds.last hv hn) hw).1
      omega
  | @step n k k' v hr hc ih =>
    intro f visited hf hvis
    obtain ⟨f, rfl⟩ : ∃ g, f = g + 1 := ⟨f - 1, by omega⟩
    rw [deref, if_neg, hr]
    · refine ih f _ (by omega) fun c hcm => ?_
      rcases List.mem_cons.1 hcm with rfl | hcm
      · exact ⟨n + 1, v, by omega, .step hr hc⟩
      · obtain ⟨i, w, hi, hw⟩ := hvis c hcm
        exact ⟨i, w, by omega, hw⟩
    · intro hm
      obtain ⟨i, w, hi, hw⟩ := hvis _ hm
      have := (chainEnds_unique (ChainEnds.step hr hc) hw).1
      omega

/-! ### Cycles -/

theorem isInitialized_never {self} {objs : Objects} {s : Remembers} {dest k' : Nat × Nat} (hr : OnlyRefers objs dest k')
    (h : (self s ⟨.object dest, k'⟩ []).1 = .error .timeout) :
    (isInitialized self objs s true dest).1 = .error .timeout := by
  unfold isInitialized
  rw [hr]
  simp only [Bool.not_true, Bool.false_eq_true, if_false]
  rcases he : self s ⟨.object dest, k'⟩ [] with ⟨o, s'⟩
  rw [he] at h
  subst h
  rfl

theorem referencedObject_never {self} {objs : Objects} {s : Remembers} {r : RefObject} {k' : Nat × Nat} (hr : OnlyRefers objs r.dest k')
    (hn : s r.name = true) (h : (self s ⟨.object r.dest, k'⟩ []).1 = .error .timeout) :
    (referencedObject self objs s r).1 = .error .timeout := by
  have := isInitialized_never hr h
  unfold referencedObject
  rw [hn]
  rcases he : isInitialized self objs s true r.dest with ⟨o, s'⟩
  rw [he] at this
  subst this
  rfl

/-- Every reference of a cycle remembers: a request never ends. -/
theorem derefKept_never {objs : Objects} {on : Nat × Nat → Prop} (hon : ∀ j, on j → ∃ j', on j' ∧ OnlyRefers objs j j')
    {s : Remembers} (hs : ∀ j, on j → s (.object j) = true) (f : Nat) :
    ∀ r : RefObject, on r.dest → s r.name = true → (derefKept objs f s r []).1 = .error .timeout := by
  induction f with
  | zero => intro r _ _; rfl
  | succ f ih =>
    intro r hr hn
    obtain ⟨k', ho, hk⟩ := hon _ hr
    rw [derefKept, compareKeys]
    simp only [List.any_nil, Bool.false_eq_true, if_false]
    rw [compareKeys]
    have h := referencedObject_never (r := r) hk hn (ih ⟨.object r.dest, k'⟩ ho (hs _ hr))
    rcases he : referencedObject (derefKept objs f) objs s r with ⟨o, s'⟩
    rw [he] at h
    subst h
    dsimp only
    rw [he]

/-- Every reference of a cycle but one remembers: a request never ends either. -/
theorem derefKept_never' {objs : Objects} {on : Nat × Nat → Prop} (hon : ∀ j, on j → ∃ j', on j' ∧ OnlyRefers objs j j')
    {s : Remembers} {p : Nat × Nat} (hs : ∀ j, on j → j ≠ p → s (.object j) = true) (hp : s (.object p) = false) (f : Nat) :
    ∀ r : RefObject, on r.dest → s r.name = true → (derefKept objs f s r []).1 = .error .timeout := by
  induction f with
  | zero => intro r _ _; rfl
  | succ f ih =>
    intro r hr hn
    obtain ⟨k', ho, hk⟩ := hon _ hr
    rw [derefKept, compareKeys]
    simp only [List.any_nil, Bool.false_eq_true, if_false]
    rw [compareKeys]
    have hself : (derefKept objs f s ⟨.object r.dest, k'⟩ []).1 = .error .timeout := by
      by_cases he : r.dest = p
      · rw [he]
        cases f with
        | zero => rfl
        | succ f =>
          obtain ⟨k'', ho', hk'⟩ := hon _ ho
          have href : referencedObject (derefKept objs f) objs s ⟨.object p, k'⟩ =
              (.ok (.direct (.ref k''.1 k''.2)), fun x => if x = .object p then true else s x) := by
            unfold referencedObject isInitialized
            simp only [hp, Bool.not_false, if_true]
            rw [hk']
          rw [derefKept, compareKeys]
          simp only [List.any_nil, Bool.false_eq_true, if_false]
          rw [compareKeys]
          dsimp only
          rw [href]
          dsimp only
          cases f with
          | zero => rfl
          | succ f =>
            have hall : ∀ j, on j → (fun x => if x = .object p then true else s x : Remembers) (.object j) = true := by
              intro j hj
              by_cases hjp : j = p
              · simp [hjp]
              · simpa [hjp] using hs j hj hjp
            obtain ⟨k3, ho3, hk3⟩ := hon _ ho'
            have hnev := derefKept_never (s := fun x => if x = .object p then true else s x) hon hall f ⟨.object k'', k3⟩ ho3 (hall _ ho')
            have hinit := isInitialized_never hk3 hnev
            have hnum : (refNumber (derefKept objs f) objs (fun x => if x = .object p then true else s x) true k'').1 =
                .error .timeout := by
              unfold refNumber
              rcases he : isInitialized (derefKept objs f) objs (fun x => if x = .object p then true else s x) true k'' with ⟨o, s'⟩
              rw [he] at hinit
              subst hinit
              rfl
            rw [derefKept, compareKeys]
            dsimp only
            have hrem : (if (RefName.object k') = .object p then true else s (.object k')) = true := hall k' ho
            rw [hrem]
            rcases he : refNumber (derefKept objs f) objs (fun x => if x = .object p then true else s x) true k'' with ⟨o, s'⟩
            rw [he] at hnum
            subst hnum
            rfl
      · exact ih ⟨.object r.dest, k'⟩ ho (hs _ hr he)
    have h := referencedObject_never (r := r) hk hn hself
    rcases he : referencedObject (derefKept objs f) objs s r with ⟨o, s'⟩
    rw [he] at h
    subst h
    dsimp only
    rw [he]

/-- Nothing that is compared remembers an object. -/
theorem compareKeys_fresh {self} {objs : Objects} {r : RefObject} {s : Remembers} (hr : s r.name = false) (l : List RefCopy)
    (hl : ∀ c ∈ l, c.remembers = false) : compareKeys self objs r s l = (.ok (), s) := by
  induction l with
  | nil => rfl
  | cons c l ih =>
    have hnum : ∀ dest, refNumber self objs s false dest = (.ok (), s) := fun dest => rfl
    rw [compareKeys, hr, hnum, hl c (by simp)]
    dsimp only
    rw [hnum]
    exact ih fun c hc => hl c (by simp [hc])

theorem getIndirect_mem {objs : Objects} {k k' : Nat × Nat} (h : OnlyRefers objs k k') : k ∈ objs.map (·.1) := by
  unfold OnlyRefers getIndirect at h
  split at h
  · rename_i e he
    have h1 := List.mem_of_find?_eq_some he
    have h2 := List.find?_some he
    have : e.1 = k := by simpa using h2
    rw [← this]
    exact List.mem_map_of_mem h1
  · cases h

/-- Where the first request stands: after the references `visited`, of which the newest does not remember yet. -/
structure Walking (objs : Objects) (i : Nat) (s : Remembers) (r : RefObject) (c : RefCopy) (l : List RefCopy) : Prop where
  name : r.name = .object c.dest
  held : s (.held i) = true
  objects : ∀ j, s (.object j) = true ↔ j ∈ l.map (·.dest)
  fresh : ∀ d ∈ c :: l, d.remembers = false
  last : OnlyRefers objs c.dest r.dest
  links : ∀ j ∈ l.map (·.dest), ∃ j' ∈ (c :: l).map (·.dest), OnlyRefers objs j j'
  nodup : ((c :: l).map (·.dest)).Nodup
  keys : (c :: l).map (·.dest) ⊆ objs.map (·.1)

theorem walking_ends {objs : Objects} {on : Nat × Nat → Prop} (hon : ∀ j, on j → ∃ j', on j' ∧ OnlyRefers objs j j') {i : Nat}
    {k : Nat × Nat} (d : Nat) : ∀ (f : Nat) (s : Remembers) (r : RefObject) (c : RefCopy) (l : List RefCopy),
      Walking objs i s r c l → on r.dest → k ∈ (c :: l).map (·.dest) → objs.length ≤ d + l.length → d + 1 ≤ f →
      (derefKept objs f s r (c :: l)).1 = .error .throw ∧
      ∀ f', (derefKept objs f' (derefKept objs f s r (c :: l)).2 ⟨.held i, k⟩ []).1 = .error .timeout := by
  induction d with
  | zero =>
    intro f s r c l hw _ _ hd _
    have := (hw.nodup.subperm hw.keys).length_le
    simp at this
    omega
  | succ d ih =>
    intro f s r c l hw ho hk hd hf
    obtain ⟨f, rfl⟩ : ∃ g, f = g + 1 := ⟨f - 1, by omega⟩
    have hnd : c.dest ∉ l.map (·.dest) := by
      have := hw.nodup
      rw [List.map_cons, List.nodup_cons] at this
      exact this.1
    have hrn : s r.name = false := by
      rw [hw.name]
      cases hb : s (.object c.dest) with
      | false => rfl
      | true => exact absurd ((hw.objects _).1 hb) hnd
    rw [derefKept, compareKeys_fresh hrn _ hw.fresh]
    dsimp only
    by_cases hany : (c :: l).any (fun x => x.dest == r.dest) = true
    · rw [if_pos hany]
      refine ⟨rfl, fun f' => ?_⟩
      obtain ⟨x, hx, hxe⟩ := List.any_eq_true.1 hany
      have hrt : r.dest ∈ (c :: l).map (·.dest) := by
        have : x.dest = r.dest := by simpa using hxe
        rw [← this]
        exact List.mem_map_of_mem hx
      refine derefKept_never' (on := fun j => j ∈ (c :: l).map (·.dest)) (p := c.dest) ?_ ?_ ?_ f' ⟨.held i, k⟩ hk hw.held
      · intro j hj
        rw [List.map_cons, List.mem_cons] at hj
        rcases hj with rfl | hj
        · exact ⟨r.dest, hrt, hw.last⟩
        · exact hw.links j hj
      · intro j hj hjp
        rw [List.map_cons, List.mem_cons] at hj
        rcases hj with rfl | hj
        · exact absurd rfl hjp
        · exact (hw.objects j).2 hj
      · rw [← hw.name]; exact hrn
    · rw [if_neg hany]
      obtain ⟨k', ho', hk'⟩ := hon _ ho
      have hnm : r.dest ∉ (c :: l).map (·.dest) := by
        intro hm
        obtain ⟨x, hx, hxe⟩ := List.mem_map.1 hm
        exact hany (List.any_eq_true.2 ⟨x, hx, by simp [hxe]⟩)
      have href : referencedObject (derefKept objs f) objs s r =
          (.ok (.direct (.ref k'.1 k'.2)), fun x => if x = r.name then true else s x) := by
        unfold referencedObject isInitialized
        simp only [hrn, Bool.not_false, if_true]
        rw [hk']
      rw [compareKeys_fresh hrn _ hw.fresh]
      dsimp only
      rw [href, hrn]
      dsimp only
      refine ih f _ ⟨.object r.dest, (k'.1, k'.2)⟩ ⟨false, r.dest⟩ (c :: l) ?_ ho' (by simp only [List.map_cons, List.mem_cons] at hk ⊢; exact Or.inr hk)
        (by simp only [List.length_cons]; omega) (by omega)
      constructor
      · rfl
      · show (if _ then true else s _) = true
        split
        · rfl
        · exact hw.held
      · intro j
        show (if RefName.object j = r.name then true else s (.object j)) = true ↔ _
        rw [hw.name]
        by_cases hj : j = c.dest
        · simp [hj]
        · simp [hj, hw.objects j]
      · intro x hx
        rcases List.mem_cons.1 hx with rfl | hx
        · rfl
        · exact hw.fresh x hx
      · exact hk'
      · intro j hj
        rw [List.map_cons, List.mem_cons] at hj
        rcases hj with rfl | hj
        · exact ⟨r.dest, by simp, hw.last⟩
        · obtain ⟨j', h1, h2⟩ := hw.links j hj
          exact ⟨j', List.mem_cons_of_mem _ h1, h2⟩
      · rw [List.map_cons, List.nodup_cons]
        exact ⟨hnm, hw.nodup⟩
      · intro x hx
        rw [List.map_cons, List.mem_cons] at hx
        rcases hx with rfl | hx
        · exact getIndirect_mem hk'
        · exact hw.keys hx

end VPdf
