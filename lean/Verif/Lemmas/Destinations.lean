import Verif.Spec.Destinations
import Verif.Lemmas.CopyObjects
import Verif.Lemmas.Parse
/-
  Lemmas about named destinations (C83).
-/
namespace VPdf
open Spec

theorem createDestination_target {s : PStore} {v : Obj} {p : ObjRef} {view : List Obj} (h : Target v p view) :
    ∃ k, createDestination s v = .ok (.ref p.1 p.2, k) := by
  cases h with
  | array n g k params hk =>
    refine ⟨k, ?_⟩
    unfold createDestination destinationArray
    rw [ok_bind]
    exact if_pos hk
  | dict d n g k params hk hd =>
    refine ⟨k, ?_⟩
    rw [valueAt_eq] at hd
    unfold createDestination destinationArray treeArray treeEntry
    simp only [hd]
    exact if_pos hk

theorem target_unique {v : Obj} {p p' : ObjRef} {view view' : List Obj} (h : Target v p view) (h' : Target v p' view') :
    p = p' ∧ view = view' := by
  cases h with
  | array n g k params hk =>
    cases h'; exact ⟨rfl, rfl⟩
  | dict d n g k params hk hd =>
    cases h' with
    | dict d n' g' k' params' hk' hd' =>
      rw [hd] at hd'
      cases hd'
      exact ⟨rfl, rfl⟩

theorem destShows_unique {s : DocObjects} {o : Obj} {p p' : ObjRef} {view view' : List Obj} (h : DestShows s o p view)
    (h' : DestShows s o p' view') : p = p' ∧ view = view' := by
  obtain ⟨v, h1, h2⟩ := h
  obtain ⟨v', h1', h2'⟩ := h'
  rw [h1] at h1'
  cases h1'
  exact target_unique h2 h2'

theorem fixDestination_target (objs : SStore) (m : ObjRef) {v : Obj} {p : ObjRef} {view : List Obj} (h : Target v p view) :
    ∃ v', fixDestination objs m v = (v', objs) ∧ Target v' m view ∧
      ∀ s s' a, a ≠ b! "D" → attributeOf s v a = attributeOf s' v' a := by
  cases h with
  | array n g k params hk => exact ⟨_, rfl, .array _ _ _ _ hk, fun _ _ _ _ => rfl⟩
  | dict d n g k params hk hd =>
    have hd' := hd
    rw [valueAt_eq] at hd'
    refine ⟨.dict (replaceEntry (b! "D") (.arr (.ref m.1 m.2 :: .name k :: params)) d), ?_, .dict _ _ _ _ _ hk ?_, fun _ _ a ha => ?_⟩
    · unfold fixDestination
      simp only [hd']
    · rw [valueAt_eq, mapFind_replace, if_pos rfl, hd']; rfl
    · show valueAt a d = valueAt a _
      rw [valueAt_eq, valueAt_eq, mapFind_replace, if_neg ha]

theorem behind_deref {s : SStore} {o v : Obj} (h : valueBehind s o = .direct v) : derefOne (pageView s) o = v := by
  cases o <;> simp only [valueBehind] at h <;> simp only [derefOne]
  case ref n g => exact pageView_direct h
  all_goals injection h

theorem target_not_null {v : Obj} {p : ObjRef} {view : List Obj} (h : Target v p view) : v ≠ .null := by
  cases h <;> simp

theorem target_not_ref {v : Obj} {p : ObjRef} {view : List Obj} (h : Target v p view) : ∀ n g, v ≠ .ref n g := by
  cases h <;> simp

/-- A destination stays one when objects are added. -/
theorem destShows_keep {s s' : DocObjects} {o : Obj} {p : ObjRef} {view : List Obj} (h : DestShows s o p view)
    (hk : ∀ n g, o = .ref n g → s' (n, g) = s (n, g)) : DestShows s' o p view ∧ ∀ a, attributeOf s' o a = attributeOf s o a := by
  have hb : valueBehind s' o = valueBehind s o := by
    cases o <;> try rfl
    case ref n g => exact hk n g rfl
  refine ⟨?_, fun a => by unfold attributeOf; rw [hb]⟩
  obtain ⟨v, h1, h2⟩ := h
  exact ⟨v, by rw [hb]; exact h1, h2⟩

theorem destShows_has {s : DocObjects} {n g : Nat} {p : ObjRef} {view : List Obj} (h : DestShows s (.ref n g) p view) : s.Has (n, g) := by
  obtain ⟨v, h1, h2⟩ := h
  unfold DocObjects.Has
  rw [show s (n, g) = .direct v from h1]
  intro e
  injection e with e
  exact target_not_null h2 e

/-- The entries of the dictionary of named destinations are in order. -/
def DestsSorted (t : MergeTarget) : Prop := ∀ d, t.dests = some d → SortedKeys d

theorem withDests_spec {t : MergeTarget} {k : Nat} (hs : DestsSorted t)
    (hr : Roomy t.doc.alloc (k + (if t.dests = none then 1 else 0))) :
    ∃ dests a, withDests t = .ok (dests, { t.doc with alloc := a }) ∧ SortedKeys dests ∧ (∀ q, mapFind q dests = named t q) ∧ Roomy a k ∧
      ∀ n, Occurs t.doc.alloc.chain n → Occurs a.chain n := by
  cases hd : t.dests with
  | none =>
    rw [if_pos hd] at hr
    obtain ⟨e, a, h1, -, -, h4, h5⟩ := allocate_roomy hr
    refine ⟨[], a, ?_, List.Pairwise.nil, fun q => by simp [named, hd, mapFind], h4, fun n hn => (h5 n).2 (.inl hn)⟩
    unfold withDests
    rw [hd]
    dsimp only
    rw [h1]; rfl
  | some d =>
    rw [if_neg (by simp [hd])] at hr
    refine ⟨d, t.doc.alloc, by unfold withDests; rw [hd], hs d hd, fun q => ?_, hr, fun n hn => hn⟩
    simp [named, hd, valueAt_eq]

/-- One destination. -/
theorem appendDestination_spec {merged : ObjRef} {t : MergeTarget} {key : Bytes} {value : Obj} {own : Bool} {p : ObjRef}
    {view : List Obj} {k : Nat} (hv : Target value p view) (hn : named t key = none) (hs : DestsSorted t)
    (hr : Roomy t.doc.alloc (k + 1 + (if t.dests = none then 1 else 0))) (hl : Listed t.doc.objs t.doc.alloc.chain) :
    ∃ t' o, appendDestination merged t key value own = .ok t' ∧ DestsSorted t' ∧ t'.dests ≠ none ∧ (∃ k', k ≤ k' ∧ Roomy t'.doc.alloc k') ∧
      Listed t'.doc.objs t'.doc.alloc.chain ∧ (∀ r, DocObjects.Has t.doc.objs r → t'.doc.objs r = t.doc.objs r) ∧
      (∀ n, Occurs t.doc.alloc.chain n → Occurs t'.doc.alloc.chain n) ∧
      (∀ q, named t' q = if q = key then some o else named t q) ∧ (∀ n g, o = .ref n g → ¬ DocObjects.Has t.doc.objs (n, g)) ∧
      DestShows t'.doc.objs o merged view ∧ ∀ s a, a ≠ b! "D" → attributeOf s value a = attributeOf t'.doc.objs o a := by
  obtain ⟨dests, a, h1, h2, h3, h4, h5⟩ := withDests_spec hs hr
  have hkey : mapFind key dests = none := by rw [h3, hn]
  have hnamed : ∀ (o q), mapFind q (mapInsert key o dests) = if q = key then some o else named t q := by
    intro o q
    rw [mapFind_insert h2, hkey, h3]
  cases own with
  | false =>
    obtain ⟨v', f1, f2, f3⟩ := fixDestination_target t.doc.objs merged hv
    obtain ⟨kk, hc⟩ := createDestination_target (s := pageView t.doc.objs) hv
    have hb : valueBehind t.doc.objs v' = .direct v' := by cases f2 <;> rfl
    refine ⟨⟨⟨t.doc.objs, a⟩, some (mapInsert key v' dests)⟩, v', ?_, ?_, by simp, ⟨k + 1, by omega, h4⟩, fun r hr => h5 _ (hl r hr), fun r _ => rfl, h5,
      fun q => ?_, fun n g e => absurd e (target_not_ref f2 n g), ⟨v', hb, f2⟩, fun s a ha => f3 s _ a ha⟩
    · unfold appendDestination
      rw [h1, ok_bind]
      dsimp only
      simp only [hkey]
      rw [hc]
      simp only [f1]
      rfl
    · intro d hd
      injection hd with hd
      rw [← hd]; exact mapInsert_sorted h2
    · show Option.bind (some _) (valueAt q) = _
      rw [Option.bind_some, valueAt_eq, hnamed]
  | true =>
    obtain ⟨e, a', g1, g2, g3, g4, g5⟩ := allocate_roomy h4
    have hfresh : ∀ r, DocObjects.Has t.doc.objs r → r ≠ (e.num, e.gen) := by
      rintro r hr rfl
      exact g3 (h5 _ (hl _ hr))
    let objs : SStore := fun r => if r = (e.num, e.gen) then .direct value else t.doc.objs r
    obtain ⟨v', f1, f2, f3⟩ := fixDestination_target objs merged hv
    obtain ⟨kk, hc⟩ := createDestination_target (s := pageView objs) hv
    let objs' : SStore := fun r => if r = (e.num, e.gen) then .direct v' else objs r
    have hb : valueBehind objs' (.ref e.num e.gen) = .direct v' := by simp [valueBehind, objs']
    refine ⟨⟨⟨objs', a'⟩, some (mapInsert key (.ref e.num e.gen) dests)⟩, .ref e.num e.gen, ?_, ?_, by simp, ⟨k, by omega, g4⟩, ?_, ?_,
      fun n hn => (g5 n).2 (.inl (h5 n hn)), fun q => ?_,
      fun n g e => by cases e; exact fun hh => hfresh _ hh rfl, ⟨v', hb, f2⟩, fun s a ha => ?_⟩
    · unfold appendDestination
      rw [h1, ok_bind]
      dsimp only
      simp only [hkey]
      rw [g1]
      simp only [if_true, ok_bind, Option.isSome_none, Bool.false_eq_true, if_false]
      have hc' : createDestination (pageView fun r => if r = (e.num, e.gen) then .direct value else t.doc.objs r) value = _ := hc
      rw [hc']
      simp only [ok_bind]
      have f1' : fixDestination (fun r => if r = (e.num, e.gen) then .direct value else t.doc.objs r) merged value = (v', objs) := f1
      rw [f1']
      rfl
    · intro d hd
      injection hd with hd
      rw [← hd]; exact mapInsert_sorted h2
    · intro r hr
      dsimp only at hr ⊢
      rw [g5]
      by_cases he : r = (e.num, e.gen)
      · rw [he]; exact .inr rfl
      · refine .inl (h5 _ (hl r ?_))
        unfold DocObjects.Has at hr ⊢
        simpa [objs', objs, he] using hr
    · intro r hr
      simp [objs', objs, hfresh r hr]
    · show Option.bind (some _) (valueAt q) = _
      rw [Option.bind_some, valueAt_eq, hnamed]
    · rw [f3 s objs' a ha]
      show _ = attributeOf objs' _ a
      unfold attributeOf
      rw [hb]
      cases f2 <;> rfl

theorem roomy_mono {a : Alloc} {k k' : Nat} (h : Roomy a k') (hk : k ≤ k') : Roomy a k := by
  obtain ⟨h1, h2, N, h3, h4, h5⟩ := h
  exact ⟨h1, h2, N, h3, h4, by omega⟩

theorem isReferencing_ref {s : SStore} {f : Nat} {page p : ObjRef} {d : Dict} (h : s p = .direct (.dict d)) :
    isReferencing (pageView s) f page (.ref p.1 p.2) = .ok (decide (p = page)) := by
  unfold isReferencing dictAt
  dsimp only
  rw [pageView_direct h]
  rfl

/-- All destinations of one page. -/
theorem mergeDestinations_spec {f : Nat} {src : SStore} {page merged : ObjRef} : ∀ (names : Dict) (t : MergeTarget) (k : Nat),
    (names.map (·.1)).Nodup → (∀ e ∈ names, ProperDest src e.2) →
    (∀ e ∈ names, ∀ view, DestShows src e.2 page view → named t e.1 = none) → DestsSorted t →
    Roomy t.doc.alloc (k + names.length + (if t.dests = none then 1 else 0)) → Listed t.doc.objs t.doc.alloc.chain →
    ∃ t', mergeDestinations f src page merged names t = .ok t' ∧ DestsSorted t' ∧
      Roomy t'.doc.alloc (k + (if t'.dests = none then 1 else 0)) ∧
      Listed t'.doc.objs t'.doc.alloc.chain ∧ (∀ r, DocObjects.Has t.doc.objs r → t'.doc.objs r = t.doc.objs r) ∧
      (∀ q v, named t q = some v → named t' q = some v) ∧
      (∀ e ∈ names, ∀ view, DestShows src e.2 page view → ∃ o, named t' e.1 = some o ∧ DestShows t'.doc.objs o merged view ∧
        (∀ n g, o = .ref n g → ¬ DocObjects.Has t.doc.objs (n, g)) ∧ ∀ a, a ≠ b! "D" → attributeOf src e.2 a = attributeOf t'.doc.objs o a) ∧
      ∀ q, named t' q ≠ none → named t q ≠ none ∨ ∃ e ∈ names, e.1 = q ∧ ∃ view, DestShows src e.2 page view
  | [], t, k, _, _, _, h4, h5, h6 =>
    ⟨t, rfl, h4, by simpa using h5, h6, fun _ _ => rfl, fun _ _ h => h, fun _ h => by simp at h, fun q h => .inl h⟩
  | (q0, o0) :: names, t, k, h1, h2, h3, h4, h5, h6 => by
    rw [List.map_cons, List.nodup_cons] at h1
    obtain ⟨p, view, d, ⟨v, hb, htar⟩, hd⟩ := h2 (q0, o0) (by simp)
    obtain ⟨kk, hc⟩ := createDestination_target (s := pageView src) htar
    have hstep : mergeDestinations f src page merged ((q0, o0) :: names) t =
        if decide (p = page) then (appendDestination merged t q0 v (isReference o0) >>= mergeDestinations f src page merged names)
        else mergeDestinations f src page merged names t := by
      rw [mergeDestinations]
      dsimp only
      rw [behind_deref hb, hc, ok_bind]
      dsimp only
      rw [isReferencing_ref hd, ok_bind]
    rw [hstep]
    by_cases hp : p = page
    · rw [if_pos (by simpa using hp)]
      have hsh : DestShows src o0 page view := ⟨v, hb, by rw [← hp]; exact htar⟩
      obtain ⟨t1, o, a1, a2, a3, ⟨k1, a4, a4'⟩, a5, a6, -, a8, a8', a9, a10⟩ := appendDestination_spec (merged := merged) (own := isReference o0)
        (k := k + names.length) htar (h3 (q0, o0) (by simp) view hsh) h4 (by
          rw [show k + names.length + 1 = k + ((q0, o0) :: names).length from by simp [Nat.add_assoc]]; exact h5) h6
      have hkeep : ∀ q v, named t q = some v → named t1 q = some v := by
        intro q v hv
        rw [a8]
        split
        · rename_i e
          rw [e, h3 (q0, o0) (by simp) view hsh] at hv; cases hv
        · exact hv
      obtain ⟨t', b1, b2, b3, b4, b5, b6, b7, b8⟩ := mergeDestinations_spec (f := f) (src := src) (page := page) (merged := merged) names t1 k h1.2
        (fun e he => h2 e (by simp [he]))
        (fun e he view hv => by
          rw [a8, if_neg (fun hh => h1.1 (List.mem_map.2 ⟨e, he, hh⟩))]
          exact h3 e (by simp [he]) view hv) a2 (by rw [if_neg a3]; exact roomy_mono a4' (by omega)) a5
      refine ⟨t', by rw [a1, ok_bind]; exact b1, b2, b3, b4, fun r hr => ?_, fun q v hv => b6 q v (hkeep q v hv), ?_, ?_⟩
      · have := a6 r hr
        rw [b5 r (by unfold DocObjects.Has at hr ⊢; rw [this]; exact hr), this]
      · intro e he view' hv'
        rcases List.mem_cons.1 he with rfl | he
        · obtain ⟨-, rfl⟩ := destShows_unique hv' hsh
          obtain ⟨c1, c2⟩ := destShows_keep (s' := t'.doc.objs) a9 (fun n g e => b5 _ (destShows_has (by rw [← e]; exact a9)))
          refine ⟨o, b6 _ _ (by rw [a8, if_pos rfl]), c1, a8', fun a ha => ?_⟩
          rw [c2, ← a10 src a ha]
          unfold attributeOf
          rw [hb]
          cases htar <;> rfl
        · obtain ⟨o', c1, c2, c3, c4⟩ := b7 e he view' hv'
          exact ⟨o', c1, c2, fun n g e hh => c3 n g e (by have := a6 _ hh; unfold DocObjects.Has at hh ⊢; rw [this]; exact hh), c4⟩
      · intro q hq
        rcases b8 q hq with hq | ⟨e, he, hh⟩
        · rw [a8] at hq
          split at hq
          · rename_i e
            exact .inr ⟨(q0, o0), by simp, e.symm, view, hsh⟩
          · exact .inl hq
        · exact .inr ⟨e, by simp [he], hh⟩
    · rw [if_neg (by simpa using hp)]
      have hno : ∀ view', ¬ DestShows src o0 page view' := fun view' hv' => hp (destShows_unique ⟨v, hb, htar⟩ hv').1
      obtain ⟨t', b1, b2, b3, b4, b5, b6, b7, b8⟩ := mergeDestinations_spec (f := f) (src := src) (page := page) (merged := merged) names t k h1.2
        (fun e he => h2 e (by simp [he])) (fun e he => h3 e (by simp [he])) h4
        (roomy_mono h5 (by simp only [List.length_cons]; omega)) h6
      refine ⟨t', b1, b2, b3, b4, b5, b6, ?_, ?_⟩
      · intro e he view' hv'
        rcases List.mem_cons.1 he with rfl | he
        · exact absurd hv' (hno view')
        · exact b7 e he view' hv'
      · intro q hq
        rcases b8 q hq with hq | ⟨e, he, hh⟩
        · exact .inl hq
        · exact .inr ⟨e, by simp [he], hh⟩

/-- Names that are used are kept, and a name is never used twice. -/
theorem appendDestination_names {merged : ObjRef} {t t' : MergeTarget} {key : Bytes} {value : Obj} {own : Bool}
    (h : appendDestination merged t key value own = .ok t') : named t key = none ∧ ∀ q v, named t q = some v → named t' q = some v := by
  obtain ⟨dests, doc, hw, hd⟩ : ∃ dests doc, withDests t = .ok (dests, doc) ∧ ∀ q, mapFind q dests = named t q := by
    unfold appendDestination at h
    cases hw : withDests t with
    | error e => rw [hw] at h; cases h
    | ok x =>
      refine ⟨x.1, x.2, rfl, fun q => ?_⟩
      unfold withDests at hw
      cases hd : t.dests with
      | some d => rw [hd] at hw; cases hw; simp [named, hd, valueAt_eq]
      | none =>
        rw [hd] at hw
        dsimp only at hw
        cases ha : t.doc.alloc.allocate with
        | error e => rw [ha] at hw; cases hw
        | ok y => rw [ha] at hw; cases hw; simp [named, hd, mapFind]
  unfold appendDestination at h
  rw [hw, ok_bind] at h
  dsimp only at h
  cases hk : mapFind key dests with
  | some v => simp only [hk, Option.isSome_some, if_true] at h; cases h
  | none =>
    refine ⟨by rw [← hd, hk], fun q v hv => ?_⟩
    have hq : q ≠ key := by rintro rfl; rw [← hd, hk] at hv; cases hv
    have key' : ∀ o, t'.dests = some (mapInsert key o dests) → named t' q = some v := by
      intro o ho
      unfold named
      rw [ho, Option.bind_some, valueAt_eq, mapFind_insert_ne hq, hd, hv]
    simp only [hk, Option.isSome_none, Bool.false_eq_true, if_false] at h
    cases own with
    | true =>
      simp only [if_true] at h
      cases ha : doc.alloc.allocate with
      | error e => rw [ha] at h; cases h
      | ok y =>
        rw [ha, ok_bind] at h
        obtain ⟨z, _, h⟩ := bind_ok h
        cases h
        exact key' _ rfl
    | false =>
      simp only [Bool.false_eq_true, if_false] at h
      obtain ⟨z, _, h⟩ := bind_ok h
      cases h
      exact key' _ rfl

theorem mergeDestinations_names {f : Nat} {src : SStore} {page merged : ObjRef} : ∀ (names : Dict) (t t' : MergeTarget),
    mergeDestinations f src page merged names t = .ok t' →
    (∀ e ∈ names, ∀ view, DestShows src e.2 page view → named t e.1 = none) ∧ ∀ q v, named t q = some v → named t' q = some v
  | [], t, t', h => by cases h; exact ⟨fun _ h => by simp at h, fun _ _ h => h⟩
  | (k, o) :: names, t, t', h => by
    rw [mergeDestinations] at h
    obtain ⟨⟨p, kind⟩, h1, h⟩ := bind_ok h
    dsimp only at h
    obtain ⟨b, h2, h⟩ := bind_ok h
    cases b with
    | false =>
      simp only [Bool.false_eq_true, if_false] at h
      obtain ⟨a1, a2⟩ := mergeDestinations_names names t t' h
      refine ⟨fun e he view hv => ?_, a2⟩
      rcases List.mem_cons.1 he with rfl | he
      · exfalso
        obtain ⟨v, hb, htar⟩ := hv
        obtain ⟨kk, hc⟩ := createDestination_target (s := pageView src) htar
        dsimp only at hb
        rw [behind_deref hb, hc] at h1
        cases h1
        unfold isReferencing at h2
        obtain ⟨_, _, h2⟩ := bind_ok h2
        simp [pure, Except.pure] at h2
      · exact a1 e he view hv
    | true =>
      simp only [if_true] at h
      obtain ⟨t1, h3, h⟩ := bind_ok h
      obtain ⟨a1, a2⟩ := mergeDestinations_names names t1 t' h
      obtain ⟨b1, b2⟩ := appendDestination_names h3
      refine ⟨fun e he view hv => ?_, fun q v hv => a2 q v (b2 q v hv)⟩
      rcases List.mem_cons.1 he with rfl | he
      · exact b1
      · have := a1 e he view hv
        cases hn : named t e.1 with
        | none => rfl
        | some v => rw [b2 _ _ hn] at this; cases this

/-! ### The loop over the pages -/

theorem hasEntry_keep {s s' : PStore} (h : ∀ r, s r ≠ .null → s' r = s r) {d : Dict} {k : Bytes} {v : Obj} (hv : v ≠ .null)
    (he : HasEntry s d k v) : HasEntry s' d k v := by
  refine ⟨he.1, ?_⟩
  rcases he.2 with h1 | ⟨n, g, h1, h2⟩
  · exact .inl h1
  · exact .inr ⟨n, g, h1, by rw [h _ (by rw [h2]; exact hv), h2]⟩

mutual
theorem stored_keep {s s' : PStore} (h : ∀ r, s r ≠ .null → s' r = s r) (t : PageTree) (ht : StoredTree s t) : StoredTree s' t := by
  match t with
  | .page r =>
    rw [StoredTree] at ht ⊢
    obtain ⟨d, h1, h2⟩ := ht
    exact ⟨d, by rw [h r (by rw [h1]; simp), h1], hasEntry_keep h (by simp) h2⟩
  | .node r kids =>
    rw [StoredTree] at ht ⊢
    obtain ⟨⟨d, h1, h2, h3, h4, h5⟩, h6⟩ := ht
    exact ⟨⟨d, by rw [h r (by rw [h1]; simp), h1], hasEntry_keep h (by simp) h2, hasEntry_keep h (by simp) h3,
      hasEntry_keep h (by simp) h4, h5⟩, storeds_keep h kids h6⟩
theorem storeds_keep {s s' : PStore} (h : ∀ r, s r ≠ .null → s' r = s r) (ts : List PageTree) (ht : StoredTrees s ts) :
    StoredTrees s' ts := by
  match ts with
  | [] => trivial
  | t :: ts =>
    rw [StoredTrees] at ht ⊢
    exact ⟨stored_keep h t ht.1, storeds_keep h ts ht.2⟩
end

mutual
theorem shaped_keep {s s' : PStore} (h : ∀ r, s r ≠ .null → s' r = s r) (t : PageTree) (ht : Shaped s t) : Shaped s' t := by
  match t with
  | .page r =>
    rw [Shaped] at ht ⊢
    obtain ⟨d, h1, h2⟩ := ht
    exact ⟨d, by rw [h r (by rw [h1]; simp), h1], h2⟩
  | .node r kids =>
    rw [Shaped] at ht ⊢
    obtain ⟨⟨d, c, h1, h2⟩, h6⟩ := ht
    exact ⟨⟨d, c, by rw [h r (by rw [h1]; simp), h1], h2⟩, shapeds_keep h kids h6⟩
theorem shapeds_keep {s s' : PStore} (h : ∀ r, s r ≠ .null → s' r = s r) (ts : List PageTree) (ht : ShapedAll s ts) :
    ShapedAll s' ts := by
  match ts with
  | [] => trivial
  | t :: ts =>
    rw [ShapedAll] at ht ⊢
    exact ⟨shaped_keep h t ht.1, shapeds_keep h ts ht.2⟩
end

theorem pageView_keep {s s' : SStore} (h : ∀ r, DocObjects.Has s r → s' r = s r) (r : ObjRef) (hr : pageView s r ≠ .null) :
    pageView s' r = pageView s r := by
  unfold pageView
  rw [h r]
  intro e
  unfold pageView at hr
  rw [e] at hr
  exact hr rfl

/-- A destination of the source is the same one when a page lost its Parent. -/
theorem destShows_drop {src : SStore} {p : ObjRef} {d : Dict} (hp : src p = .direct (.dict d)) (o : Obj) (q : ObjRef) (view : List Obj) :
    (DestShows (dropParent src p d) o q view ↔ DestShows src o q view) ∧
      ∀ a, a ≠ b! "Parent" → attributeOf (dropParent src p d) o a = attributeOf src o a := by
  by_cases ho : o = .ref p.1 p.2
  · have h1 : valueBehind src o = .direct (.dict d) := by rw [ho]; exact hp
    have h2 : valueBehind (dropParent src p d) o = .direct (.dict (mapErase (b! "Parent") d)) := by
      rw [ho]; exact if_pos rfl
    constructor
    · constructor
      · rintro ⟨v, e1, e2⟩
        rw [h2] at e1
        cases e1
        cases e2 with
        | dict _ n g k params hk hd =>
          refine ⟨_, h1, .dict _ _ _ _ _ hk ?_⟩
          rw [valueAt_eq, mapFind_erase, if_neg (by decide)] at hd
          rw [valueAt_eq, hd]
      · rintro ⟨v, e1, e2⟩
        rw [h1] at e1
        cases e1
        cases e2 with
        | dict _ n g k params hk hd =>
          refine ⟨_, h2, .dict _ _ _ _ _ hk ?_⟩
          rw [valueAt_eq] at hd
          rw [valueAt_eq, mapFind_erase, if_neg (by decide), hd]
    · intro a ha
      unfold attributeOf
      rw [h1, h2]
      dsimp only
      rw [valueAt_eq, valueAt_eq, mapFind_erase, if_neg ha]
  · have h1 : valueBehind (dropParent src p d) o = valueBehind src o := by
      cases o <;> try rfl
      case ref n g =>
        show dropParent src p d (n, g) = src (n, g)
        exact if_neg fun e => ho (by rw [← e])
    unfold DestShows attributeOf
    rw [h1]
    exact ⟨Iff.rfl, fun _ _ => rfl⟩

theorem properDest_drop {src : SStore} {p : ObjRef} {d : Dict} (hp : src p = .direct (.dict d)) {o : Obj} (h : ProperDest src o) :
    ProperDest (dropParent src p d) o := by
  obtain ⟨q, view, d', h1, h2⟩ := h
  by_cases hq : q = p
  · exact ⟨q, view, mapErase (b! "Parent") d, (destShows_drop hp o q view).1.2 h1, by rw [hq]; exact if_pos rfl⟩
  · exact ⟨q, view, d', (destShows_drop hp o q view).1.2 h1, by rw [← h2]; exact if_neg hq⟩

theorem nodup_key : ∀ {l : Dict}, (l.map (·.1)).Nodup → ∀ {e e' : Bytes × Obj}, e ∈ l → e' ∈ l → e.1 = e'.1 → e = e'
  | x :: l, h, e, e', h1, h2, h3 => by
    rw [List.map_cons, List.nodup_cons] at h
    rcases List.mem_cons.1 h1 with h1 | h1 <;> rcases List.mem_cons.1 h2 with h2 | h2
    · rw [h1, h2]
    · exact absurd (List.mem_map.2 ⟨e', h2, by rw [← h3, h1]⟩) h.1
    · exact absurd (List.mem_map.2 ⟨e, h1, by rw [h3, h2]⟩) h.1
    · exact nodup_key h.2 h1 h2 h3

theorem appendPagesNamed_spec {f k : Nat} {sroot root : ObjRef} {kids : List PageTree} {l : List ObjRef} {names : Dict} (hf : l.length < f)
    (hkids : (PageTree.node sroot kids).depth ≤ f) (hbound : (pagesOf kids).length < 2 ^ 63) (hnk : (names.map (·.1)).Nodup)
    (hpn : (pagesOf kids).Nodup) :
    ∀ (n i : Nat) (src : SStore) (t : MergeTarget) (ts : List PageTree), i + n = (pagesOf kids).length →
    StoredTree (pageView src) (.node sroot kids) → (∀ p ∈ pagesOf kids, Shaped (pageView src) (.page p)) →
    (∀ r, DocObjects.Has src r → r ∈ l) → Complete src → Shaped (pageView t.doc.objs) (.node root ts) →
    StoredTree (pageView t.doc.objs) (.node root ts) → (PageTree.node root ts).nodes.Nodup →
    Roomy t.doc.alloc (k + n * (l.length + names.length) + (if t.dests = none then 1 else 0)) → Listed t.doc.objs t.doc.alloc.chain →
    depthOf ts + 1 < f → ts.length + n < 2 ^ 64 - 1 → (pagesOf ts).length + n + 1 < 2 ^ 63 →
    (∀ e ∈ names, ProperDest src e.2) → DestsSorted t →
    (∀ e ∈ names, ∀ (j : Nat) (p : ObjRef) view, (pagesOf kids)[i + j]? = some p → DestShows src e.2 p view → named t e.1 = none) →
    ∃ (src' : SStore) (t' : MergeTarget) (new : List ObjRef), appendPagesNamed f sroot root names n (i + 1) src t = .ok (new, src', t') ∧
      new.length = n ∧ StoredTree (pageView t'.doc.objs) (.node root (ts ++ new.map .page)) ∧
      (∀ (j : Nat) (p c : ObjRef), (pagesOf kids)[i + j]? = some p → new[j]? = some c →
        FaithfulCopy src t'.doc.objs (PageTree.node root ts).nodes p c) ∧
      (∀ c ∈ new, ¬ DocObjects.Has t.doc.objs c) ∧ new.Nodup ∧
      (∀ r, r ∉ (PageTree.node root ts).nodes → DocObjects.Has t.doc.objs r → t'.doc.objs r = t.doc.objs r) ∧
      (∀ r, noParent (src' r) = noParent (src r)) ∧ (∀ r, r ∉ pagesOf kids → src' r = src r) ∧
      (∀ q v, named t q = some v → named t' q = some v) ∧
      (∀ e ∈ names, ∀ (j : Nat) (p c : ObjRef) view, (pagesOf kids)[i + j]? = some p → new[j]? = some c → DestShows src e.2 p view →
        ∃ o, named t' e.1 = some o ∧ DestShows t'.doc.objs o c view ∧
          ∀ a, a ≠ b! "D" → a ≠ b! "Parent" → attributeOf src e.2 a = attributeOf t'.doc.objs o a) ∧
      (∀ q, named t' q ≠ none → named t q ≠ none ∨
        ∃ e ∈ names, e.1 = q ∧ ∃ (p : ObjRef) (view : List Obj), p ∈ pagesOf kids ∧ DestShows src e.2 p view)
  | 0, i, src, t, ts, _, _, _, _, _, _, h6, _, _, _, _, _, _, _, _, _ =>
    ⟨src, t, [], rfl, rfl, by simpa using h6, fun j p c _ h => by simp at h, fun c h => by simp at h, by simp,
      fun _ _ _ => rfl, fun _ => rfl, fun _ _ => rfl, fun _ _ h => h, fun _ _ _ _ _ _ _ h => by simp at h, fun q h => .inl h⟩
  | n + 1, i, src, t, ts, h0, h1, h2, h3, h4, h5, h6, h7, h8, h9, h10, h11, h12, h13, h14, h15 => by
    obtain ⟨p, hp⟩ : ∃ p, (pagesOf kids)[i]? = some p := ⟨_, List.getElem?_eq_getElem (by omega)⟩
    have hpm : p ∈ pagesOf kids := List.mem_of_getElem? hp
    have hsh := h2 p hpm
    rw [Shaped] at hsh
    obtain ⟨d, hd, hty⟩ := hsh
    have hpd := pageView_dict hd
    have hat : pageAt (pageView src) f sroot (i + 1) = .ok p := by
      have hs := h1
      rw [StoredTree] at h1
      obtain ⟨⟨d, g1, g2, _⟩, _⟩ := h1
      unfold pageAt
      rw [if_neg (by omega), pageTreeNode_eq g1 g2, ok_bind]
      have := pageInternal_stored (pageView src) (i + 1) (by omega) (.node sroot kids) hs rfl f 1 hkids (by omega)
        (by rw [PageTree.pages]; omega)
      rw [show (PageTree.node sroot kids).ref = sroot from rfl, show (PageTree.node sroot kids).pages = pagesOf kids from rfl,
        Nat.add_sub_cancel, hp] at this
      exact this
    obtain ⟨dst1, c, a1, a2, a3, a4, a5, a6, a7, a8⟩ := appendForeignPage_spec
      (k := k + n * (l.length + names.length) + names.length + (if t.dests = none then 1 else 0)) h3 h4 hpd hty h5 h7
      (roomy_mono h8 (by rw [Nat.succ_mul]; omega)) h9 hf h10 (by omega) (by omega)
    have hsame := dropParent_same hpd
    have hnp := dropParent_noParent hpd hty
    have hns : (PageTree.node root (ts ++ [.page c])).nodes = (PageTree.node root ts).nodes := by
      rw [PageTree.nodes, PageTree.nodes, nodesOf_append]
      simp [nodesOf, PageTree.nodes]
    have hlen : (pagesOf (ts ++ [.page c])).length = (pagesOf ts).length + 1 := by
      rw [pagesOf_append, List.length_append]; rfl
    have hdep : depthOf (ts ++ [.page c]) = depthOf ts := by
      rw [depthOf_append]
      simp [depthOf, PageTree.depth]
    have hnode : ∀ r ∈ (PageTree.node root ts).nodes, DocObjects.Has dst1.objs r := by
      intro r hr
      obtain ⟨d', g1, _⟩ := shaped_nodes _ a2 r (by rw [hns]; exact hr)
      unfold DocObjects.Has; rw [pageView_dict g1]; simp
    obtain ⟨t1, m1, m2, m3, m4, m5, m6, m7, m8⟩ := mergeDestinations_spec (f := f) (src := dropParent src p d) (page := p) (merged := c) names
      { t with doc := dst1 } (k + n * (l.length + names.length)) hnk (fun e he => properDest_drop hpd (h13 e he))
      (fun e he view hv => h15 e he 0 p view hp ((destShows_drop hpd _ _ _).1.1 hv)) h14 a7 a8
    have hpv := pageView_keep m5
    have hmono : ∀ r, r ∉ (PageTree.node root ts).nodes → DocObjects.Has t.doc.objs r → t1.doc.objs r = t.doc.objs r ∧ DocObjects.Has t1.doc.objs r := by
      intro r g1 g2
      have e := a6 r g1 g2
      have e' := m5 r (by unfold DocObjects.Has at g2 ⊢; rw [e]; exact g2)
      dsimp only at e'
      exact ⟨by rw [e', e], by unfold DocObjects.Has at g2 ⊢; rw [e', e]; exact g2⟩
    obtain ⟨src2, t2, new, b1, b2, b4, b5, b6, b7, b8, b9, b10, b11, b12, b13⟩ := appendPagesNamed_spec hf hkids hbound hnk hpn n (i + 1)
      (dropParent src p d) t1 (ts ++ [.page c]) (by omega) (stored_parent hsame _ h1)
      (fun q hq => by
        have := h2 q hq
        rw [Shaped] at this ⊢
        obtain ⟨d1, e1, e2⟩ := this
        obtain ⟨d2, e3, e4⟩ := hsame.dict e1
        exact ⟨d2, e3, by rw [e4 _ (by decide), e2]⟩)
      (fun r hr => h3 r (by
        unfold dropParent DocObjects.Has at hr
        unfold DocObjects.Has
        dsimp only at hr
        split at hr
        · rename_i e; rw [e, hpd]; simp
        · exact hr))
      (fun r q hq => by
        have hm : MentionsS q (src r) := by
          unfold dropParent at hq
          split at hq
          · rename_i e
            rw [e, hpd]
            unfold MentionsS at hq ⊢
            dsimp only at hq ⊢
            cases hq with
            | dict _ k o hm ho => exact .dict _ k o (List.mem_filter.mp hm).1 ho
          · exact hq
        have := h4 r q hm
        unfold dropParent DocObjects.Has
        dsimp only
        split
        · simp
        · exact this)
      (shaped_keep hpv _ a2) (stored_keep hpv _ a3) (by rw [hns]; exact h7) m3 m4 (by rw [hdep]; exact h10)
      (by rw [List.length_append]; simp only [List.length_singleton]; omega)
      (by rw [hlen]; omega) (fun e he => properDest_drop hpd (h13 e he)) m2
      (fun e he j q view hq hv => by
        have hv' := (destShows_drop hpd _ _ _).1.1 hv
        have hold : named t e.1 = none := h15 e he (j + 1) q view (by rw [← hq]; congr 1; omega) hv'
        cases hnew : named t1 e.1 with
        | none => rfl
        | some x =>
          exfalso
          rcases m8 e.1 (by rw [hnew]; simp) with hh | ⟨e', he', hk, view', hv''⟩
          · exact hh hold
          · have : e' = e := nodup_key hnk he' he hk
            subst this
            have hpq := (destShows_unique hv'' hv).1
            subst hpq
            have := (List.getElem?_inj (i := i) (j := i + 1 + j) (by omega) hpn).1 (hp.trans hq.symm)
            omega)
    rw [hns] at b5 b8
    have hcat : ts ++ [PageTree.page c] ++ new.map .page = ts ++ (c :: new).map .page := by simp
    rw [hcat] at b4
    have hfaith : FaithfulCopy src t1.doc.objs (PageTree.node root ts).nodes p c := a4.keep fun r _ hr => m5 r hr
    refine ⟨src2, t2, c :: new, ?_, by simp [b2], b4, ?_, ?_, ?_, ?_, ?_, ?_, ?_, ?_, ?_⟩
    · rw [appendPagesNamed, hat, ok_bind]
      unfold appendPageNamed
      rw [a1, ok_bind]
      dsimp only
      rw [m1]
      show (appendPagesNamed f sroot root names n (i + 1 + 1) (dropParent src p d) t1 >>= _) = _
      rw [b1]
      rfl
    · intro j q e hq he
      cases j with
      | zero =>
        rw [Nat.add_zero, hp] at hq
        cases hq
        simp only [List.getElem?_cons_zero, Option.some.injEq] at he
        subst he
        exact hfaith.keep b8
      | succ j =>
        simp only [List.getElem?_cons_succ] at he
        exact (b5 j q e (by rw [Nat.add_assoc, Nat.add_comm 1 j]; exact hq) he).source hnp
    · intro e he
      rcases List.mem_cons.mp he with rfl | he
      · exact a5
      · intro hh
        refine b6 e he ?_
        by_cases hn : e ∈ (PageTree.node root ts).nodes
        · have := hnode e hn
          have e2 := m5 e this
          dsimp only at e2
          unfold DocObjects.Has at this ⊢; rw [e2]; exact this
        · exact (hmono e hn hh).2
    · rw [List.nodup_cons]
      exact ⟨fun hm => b6 c hm hfaith.has.2, b7⟩
    · intro r g1 g2
      rw [b8 r g1 (hmono r g1 g2).2, (hmono r g1 g2).1]
    · intro r; rw [b9, hnp]
    · intro r hr
      rw [b10 r hr]
      unfold dropParent
      rw [if_neg (fun e : r = p => hr (by rw [e]; exact hpm))]
    · exact fun q v hv => b11 q v (m6 q v hv)
    · intro e he j q x view hq hx hv
      cases j with
      | zero =>
        rw [Nat.add_zero, hp] at hq
        cases hq
        simp only [List.getElem?_cons_zero, Option.some.injEq] at hx
        subst hx
        obtain ⟨o, c1, c2, c3, c4⟩ := m7 e he view ((destShows_drop hpd _ _ _).1.2 hv)
        obtain ⟨d1, d2⟩ := destShows_keep (s' := t2.doc.objs) c2 (fun n g e => b8 _ (fun hh => c3 n g e (hnode _ hh))
          (destShows_has (by rw [← e]; exact c2)))
        refine ⟨o, b11 _ _ c1, d1, fun a ha hb => ?_⟩
        rw [d2, ← c4 a ha, (destShows_drop hpd e.2 p view).2 a hb]
      | succ j =>
        simp only [List.getElem?_cons_succ] at hx
        obtain ⟨o, c1, c2, c3⟩ := b12 e he j q x view (by rw [Nat.add_assoc, Nat.add_comm 1 j]; exact hq) hx
          ((destShows_drop hpd _ _ _).1.2 hv)
        refine ⟨o, c1, c2, fun a ha hb => ?_⟩
        rw [← c3 a ha hb, (destShows_drop hpd e.2 p view).2 a hb]
    · intro q hq
      rcases b13 q hq with hq | ⟨e, he, hk, q', view, hm, hv⟩
      · rcases m8 q hq with hq | ⟨e, he, hk, view, hv⟩
        · exact .inl hq
        · exact .inr ⟨e, he, hk, p, view, hpm, (destShows_drop hpd _ _ _).1.1 hv⟩
      · exact .inr ⟨e, he, hk, q', view, hm, (destShows_drop hpd _ _ _).1.1 hv⟩

end VPdf
