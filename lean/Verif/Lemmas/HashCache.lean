import Verif.Lemmas.Values
/-
  Cached hash values.
-/
namespace VPdf
open Spec

/-- The classes with a cache. -/
def Body.cacheable : Body → Bool
  | .arr _ | .dict _ | .ref _ _ => true
  | _ => false

theorem strip_cacheable {a b : Body} (h : a.strip = b.strip) : a.cacheable = b.cacheable := by
  cases a <;> cases b <;> simp_all [Body.strip, Body.cacheable]

/-- Every cached hash value is right, and all parts of an object with a cached value are initialised. -/
def HashOk (H : StdHash) (h : Heap) : Prop := ∀ c, (h.node c).cache ≠ 0 →
  (h.node c).body.cacheable = true ∧ (∃ o, HasValue h c o ∧ (h.node c).cache = hashObj H o) ∧
  ∀ j, Inside h c j → (h.node j).init = true

theorem HashOk.edit {H : StdHash} {h h' : Heap} (ok : HashOk H h)
    (he : ∀ c, (h'.node c).cache ≠ 0 → (h'.node c).cache = (h.node c).cache ∧
      (∀ k, Part h c k → (h'.node k).body.strip = (h.node k).body.strip) ∧
      ∀ j, Inside h c j → (h.node j).init = true → (h'.node j).init = true) : HashOk H h' := by
  intro c hc
  obtain ⟨h1, h2, h3⟩ := he c hc
  rw [h1] at hc ⊢
  obtain ⟨k1, ⟨o, k2, k3⟩, k4⟩ := ok c hc
  refine ⟨(strip_cacheable (h2 c (.inl rfl))).trans k1, ⟨o, holds_parts h2 k2, k3⟩, fun j hj => ?_⟩
  have := inside_parts h2 hj
  exact h3 j this (k4 j this)

theorem inside_upTo {h h1 : Heap} {j : Id} (w : Wired h) (ed : EditAt j h h1) {c : Id} (n : Inside h c j)
    (hi : ∀ k, Inside h c k → (h.node k).init = true) : UpTo h1 j c := by
  induction n with
  | one c j hj =>
    by_cases hc : c = j
    · subst hc; exact .refl c
    · exact .step j c c ((ed.init j).trans (hi j (.one c j hj))) (ed.obs j c hc (w c j hj)) (.refl c)
  | more c x j hx _ ih =>
    by_cases hc : c = j
    · subst hc; exact .refl c
    · exact (ih ed fun k hk => hi k (.more c x k hx hk)).snoc ((ed.init x).trans (hi x (.one c x hx))) (ed.obs x c hc (w c x hx))

theorem setBody_cache (h : Heap) (i k : Id) (b : Body) : ((h.setBody i b).node k).cache = (h.node k).cache := by
  rw [Heap.setBody, modify_node]; split <;> rfl

theorem subscribe_cache (h : Heap) (i o k : Id) : ((h.subscribe i o).node k).cache = (h.node k).cache := by
  rw [Heap.subscribe, modify_node]; split <;> rfl

theorem unsubscribe_cache (h : Heap) (i o k : Id) : ((h.unsubscribe i o).node k).cache = (h.node k).cache := by
  rw [Heap.unsubscribe, modify_node]; split <;> rfl

theorem unsubscribeAll_cache (d : Id) (l : List (Bytes × Id)) (h : Heap) (k : Id) :
    ((l.foldl (fun h e => h.unsubscribe e.2 d) h).node k).cache = (h.node k).cache := by
  induction l generalizing h with
  | nil => rfl
  | cons e l ih => rw [List.foldl_cons, ih, unsubscribe_cache]

theorem foldlM_error {α β : Type} {g : β → α → Res β} {P : Fault → Prop} (hg : ∀ b a e, g b a = .error e → P e)
    (l : List α) : ∀ b e, l.foldlM g b = .error e → P e := by
  induction l with
  | nil => intro b e h; cases h
  | cons a l ih =>
    intro b e h
    rw [List.foldlM_cons] at h
    cases hga : g b a with
    | error e' => rw [hga] at h; cases h; exact hg b a e hga
    | ok c => rw [hga] at h; exact ih c e h

theorem onChanged_error (f : Nat) : ∀ (h : Heap) (i : Id) (e : Fault), onChanged f h i = .error e → e = .timeout := by
  induction f with
  | zero => intro h i e he; cases he; rfl
  | succ f ih =>
    intro h i e he
    rw [onChanged] at he
    split at he
    · cases hf : (h.node i).observers.foldlM (onChanged f) (h.modify i fun n => { n with dirty := true }) with
      | error e' => rw [hf] at he; cases he; exact foldlM_error (P := fun e => e = .timeout) ih _ _ _ hf
      | ok h1 => rw [hf] at he; cases he
    · cases he

theorem hashOk_changed {H : StdHash} {f : Nat} {h h1 : Heap} {j : Id} (w : Wired h) (ed : EditAt j h h1)
    (hc : ∀ k, (h1.node k).cache = (h.node k).cache) (ok : HashOk H h)
    (ho : (changed f h1 j).2 ≠ .error .timeout) : HashOk H (changed f h1 j).1 := by
  have fr := changed_frame f h1 j
  refine ok.edit fun c hn => ?_
  have e1 : ((changed f h1 j).1.node c).cache = (h.node c).cache := by
    rcases fr.cache c with e | e
    · rw [e, hc]
    · exact absurd e hn
  have up : ¬UpTo h1 j c := by
    intro u
    apply hn
    unfold changed at ho ⊢
    cases e : onChanged f h1 j with
    | error e' =>
      rw [e] at ho
      exact absurd rfl (by rw [onChanged_error f h1 j e' e] at ho; exact ho)
    | ok h' => exact (onChanged_up f h1 j h' e c u).1
  have np : ¬Part h c j := by
    rintro (rfl | n)
    · exact up (.refl j)
    · exact up (inside_upTo w ed n (ok c (by rwa [e1] at hn)).2.2)
  refine ⟨e1, fun k hk => ?_, fun k _ hi => ?_⟩
  · rw [fr.body, ed.body k (by rintro rfl; exact np hk)]
  · rw [fr.init, ed.init]; exact hi

theorem holds_no_entry {h : Heap} {k : Id} {r : Option Id} (e : (h.node k).body = .entry r) {o : Obj} : ¬HasValue h k o := by
  intro x; cases x <;> simp_all

mutual
theorem holds_child {h : Heap} : ∀ {i : Id} {o : Obj}, HasValue h i o → ∀ m ∈ (h.node i).body.children, ∃ o', HasValue h m o'
  | i, _, .null _ e, m, hm => by rw [e] at hm; cases hm
  | i, _, .bool _ v e, m, hm => by rw [e] at hm; cases hm
  | i, _, .int _ v e, m, hm => by rw [e] at hm; cases hm
  | i, _, .real _ _ _ e, m, hm => by rw [e] at hm; cases hm
  | i, _, .name _ v e, m, hm => by rw [e] at hm; cases hm
  | i, _, .lit _ v x e, m, hm => by rw [e] at hm; cases hm
  | i, _, .hex _ v x e, m, hm => by rw [e] at hm; cases hm
  | i, _, .ref _ _ _ e, m, hm => by rw [e] at hm; cases hm
  | i, _, .arr _ l os e t, m, hm => by rw [e] at hm; exact holdsItems_child t m hm
  | i, _, .dict _ l os e t, m, hm => by rw [e] at hm; exact holdsEntries_child t m hm
theorem holdsItems_child {h : Heap} : ∀ {l : List Id} {os : List Obj}, HasItems h l os → ∀ m ∈ l, ∃ o', HasValue h m o'
  | _, _, .nil, m, hm => by cases hm
  | _, _, .cons i o is os a t, m, hm => by
    rcases List.mem_cons.mp hm with rfl | hm
    · exact ⟨o, a⟩
    · exact holdsItems_child t m hm
theorem holdsEntries_child {h : Heap} : ∀ {l : List (Bytes × Id)} {os : List (Bytes × Obj)}, HasEntries h l os →
    ∀ m ∈ l.map Prod.snd, ∃ o', HasValue h m o'
  | _, _, .nil, m, hm => by cases hm
  | _, _, .cons k i o is os a t, m, hm => by
    rcases List.mem_cons.mp hm with rfl | hm
    · exact ⟨o, a⟩
    · exact holdsEntries_child t m hm
end

theorem holds_part {h : Heap} {i : Id} {o : Obj} (x : HasValue h i o) {k : Id} (p : Part h i k) : ∃ o', HasValue h k o' := by
  rcases p with rfl | n
  · exact ⟨o, x⟩
  · induction n generalizing o with
    | one c j hj => exact holds_child x j hj
    | more c y j hy _ ih => obtain ⟨o', hy'⟩ := holds_child x y hy; exact ih hy'

/-! ### Computing a hash value -/

theorem holds_same {h h' : Heap} (s : SameBodies h h') {i : Id} {o : Obj} (x : HasValue h i o) : HasValue h' i o :=
  holds_parts (fun k _ => by rw [s.body]) x

theorem inside_same {h h' : Heap} (s : SameBodies h h') {i j : Id} (x : Inside h' i j) : Inside h i j :=
  inside_parts (fun k _ => by rw [s.body]) x

theorem SameBodies.symm {h h' : Heap} (s : SameBodies h h') : SameBodies h' h := ⟨s.next.symm, fun k => (s.body k).symm⟩

theorem hashOk_store {H : StdHash} {h : Heap} (ok : HashOk H h) (i : Id) (o : Obj) (r : UInt64) (x : HasValue h i o)
    (hr : r = hashObj H o) (hb : (h.node i).body.cacheable = true) (hi : ∀ j, Inside h i j → (h.node j).init = true) :
    HashOk H (h.modify i fun n => { n with cache := r }) := by
  have oc := cache_only h i r
  intro c hc
  rw [oc.body]
  by_cases hci : c = i
  · subst hci
    refine ⟨hb, ⟨o, holds_same oc.sameBodies x, ?_⟩, fun j hj => ?_⟩
    · rw [modify_same]; exact hr
    · rw [oc.init]; exact hi j (inside_same oc.sameBodies hj)
  · rw [modify_other _ _ hci] at hc ⊢
    obtain ⟨k1, ⟨o', k2, k3⟩, k4⟩ := ok c hc
    refine ⟨k1, ⟨o', holds_same oc.sameBodies k2, k3⟩, fun j hj => ?_⟩
    rw [oc.init]; exact k4 j (inside_same oc.sameBodies hj)

/-- What `hashNode` does. -/
def HashGood (H : StdHash) (f : Nat) : Prop := ∀ (h : Heap) (i : Id) (v : UInt64) (h' : Heap), hashNode H f h i = .ok (v, h') →
  HashOk H h → (∀ j, Inside h i j → (h.node j).init = true) → (∃ o, HasValue h i o ∧ v = hashObj H o) ∧ HashOk H h'

theorem hashItems_good {H : StdHash} {f : Nat} (hg : HashGood H f) : ∀ (items : List Id) (h : Heap) (r r' : UInt64) (h' : Heap),
    items.foldlM (fun (s : UInt64 × Heap) j => (do
      let (v, h) ← hashNode H f s.2 j
      pure (s.1 ^^^ v, h) : Res (UInt64 × Heap))) (r, h) = .ok (r', h') → HashOk H h →
    (∀ m ∈ items, ∀ j, Inside h m j → (h.node j).init = true) →
    (∃ os, HasItems h items os ∧ r' = hashItems H r os) ∧ HashOk H h' ∧ OnlyCaches h h' := by
  intro items
  induction items with
  | nil => intro h r r' h' he ok _; cases he; exact ⟨⟨[], .nil, rfl⟩, ok, .refl h⟩
  | cons m items ih =>
    intro h r r' h' he ok hi
    rw [List.foldlM_cons] at he
    cases e : hashNode H f h m with
    | error e' => simp only [e] at he; cases he
    | ok q =>
      obtain ⟨v, h1⟩ := q
      simp only [e] at he
      obtain ⟨⟨o, x1, x2⟩, ok1⟩ := hg h m v h1 e ok (hi m (List.mem_cons_self ..))
      have oc := hashNode_only H f _ _ _ _ e
      obtain ⟨⟨os, y1, y2⟩, ok2, oc2⟩ := ih h1 (r ^^^ v) r' h' he ok1 (fun m' hm' j hj => by
        rw [oc.init]; exact hi m' (List.mem_cons_of_mem _ hm') j (inside_same oc.sameBodies hj))
      refine ⟨⟨o :: os, .cons _ _ _ _ x1 ?_, ?_⟩, ok2, .trans _ _ _ oc oc2⟩
      · exact holdsItems_congr (fun _ => True) (fun _ _ _ _ => trivial) (fun k _ => by rw [oc.body]) y1 (fun _ _ => trivial)
      · rw [hashItems, ← x2]; exact y2

theorem hashEntries_good {H : StdHash} {f : Nat} (hg : HashGood H f) :
    ∀ (items : List (Bytes × Id)) (h : Heap) (r r' : UInt64) (h' : Heap),
    items.foldlM (fun (s : UInt64 × Heap) e => (do
      let (v, h) ← hashNode H f s.2 e.2
      pure (s.1 ^^^ hashBytes H e.1 ^^^ v, h) : Res (UInt64 × Heap))) (r, h) = .ok (r', h') → HashOk H h →
    (∀ m ∈ items.map Prod.snd, ∀ j, Inside h m j → (h.node j).init = true) →
    (∃ os, HasEntries h items os ∧ r' = hashEntries H r os) ∧ HashOk H h' ∧ OnlyCaches h h' := by
  intro items
  induction items with
  | nil => intro h r r' h' he ok _; cases he; exact ⟨⟨[], .nil, rfl⟩, ok, .refl h⟩
  | cons m items ih =>
    obtain ⟨k, m⟩ := m
    intro h r r' h' he ok hi
    rw [List.foldlM_cons] at he
    cases e : hashNode H f h m with
    | error e' => simp only [e] at he; cases he
    | ok q =>
      obtain ⟨v, h1⟩ := q
      simp only [e] at he
      obtain ⟨⟨o, x1, x2⟩, ok1⟩ := hg h m v h1 e ok (hi m (List.mem_cons_self ..))
      have oc := hashNode_only H f _ _ _ _ e
      obtain ⟨⟨os, y1, y2⟩, ok2, oc2⟩ := ih h1 (r ^^^ hashBytes H k ^^^ v) r' h' he ok1 (fun m' hm' j hj => by
        rw [oc.init]; exact hi m' (List.mem_cons_of_mem _ hm') j (inside_same oc.sameBodies hj))
      refine ⟨⟨(k, o) :: os, .cons _ _ _ _ _ x1 ?_, ?_⟩, ok2, .trans _ _ _ oc oc2⟩
      · exact holdsEntries_congr (fun _ => True) (fun _ _ _ _ => trivial) (fun k _ => by rw [oc.body]) y1 (fun _ _ => trivial)
      · rw [hashEntries, ← x2]; exact y2

theorem hashNode_good (H : StdHash) (f : Nat) : HashGood H f := by
  induction f with
  | zero => intro h i v h' he; cases he
  | succ f ih =>
    intro h i v h' he ok hi
    rw [hashNode] at he
    cases e : (h.node i).body with
    | arr items =>
      simp only [e] at he
      split at he
      · rename_i hc
        cases he
        obtain ⟨o, x1, x2⟩ := (ok i hc).2.1
        exact ⟨⟨o, x1, x2⟩, ok⟩
      · cases hf : items.foldlM (fun (s : UInt64 × Heap) j => (do
            let (v, h) ← hashNode H f s.2 j
            pure (s.1 ^^^ v, h) : Res (UInt64 × Heap))) (0, h) with
        | error e' => rw [hf] at he; cases he
        | ok p =>
          obtain ⟨r, h1⟩ := p
          rw [hf] at he; cases he
          obtain ⟨⟨os, y1, y2⟩, ok1, oc⟩ := hashItems_good ih items h 0 _ h1 hf ok
            (fun m hm j hj => hi j (.more i m j (by rw [e]; exact hm) hj))
          have x : HasValue h i (.arr os) := .arr i items os e y1
          refine ⟨⟨_, x, by rw [hashObj]; exact y2⟩, hashOk_store ok1 i _ _ (holds_same oc.sameBodies x)
            (by rw [hashObj]; exact y2) (by rw [oc.body, e]; rfl) fun j hj => ?_⟩
          rw [oc.init]; exact hi j (inside_same oc.sameBodies hj)
    | dict items =>
      simp only [e] at he
      split at he
      · rename_i hc
        cases he
        obtain ⟨o, x1, x2⟩ := (ok i hc).2.1
        exact ⟨⟨o, x1, x2⟩, ok⟩
      · cases hf : items.foldlM (fun (s : UInt64 × Heap) e => (do
            let (v, h) ← hashNode H f s.2 e.2
            pure (s.1 ^^^ hashBytes H e.1 ^^^ v, h) : Res (UInt64 × Heap))) (0, h) with
        | error e' => rw [hf] at he; cases he
        | ok p =>
          obtain ⟨r, h1⟩ := p
          rw [hf] at he; cases he
          obtain ⟨⟨os, y1, y2⟩, ok1, oc⟩ := hashEntries_good ih items h 0 _ h1 hf ok
            (fun m hm j hj => hi j (.more i m j (by rw [e]; exact hm) hj))
          have x : HasValue h i (.dict os) := .dict i items os e y1
          refine ⟨⟨_, x, by rw [hashObj]; exact y2⟩, hashOk_store ok1 i _ _ (holds_same oc.sameBodies x)
            (by rw [hashObj]; exact y2) (by rw [oc.body, e]; rfl) fun j hj => ?_⟩
          rw [oc.init]; exact hi j (inside_same oc.sameBodies hj)
    | ref n g =>
      simp only [e] at he
      split at he
      · rename_i hc
        cases he
        obtain ⟨o, x1, x2⟩ := (ok i hc).2.1
        exact ⟨⟨o, x1, x2⟩, ok⟩
      · cases he
        exact ⟨⟨_, .ref i n g e, rfl⟩, hashOk_store ok i _ _ (.ref i n g e) rfl (by rw [e]; rfl) hi⟩
    | entry r => simp only [e] at he; cases he
    | null => simp only [e] at he; cases he; exact ⟨⟨_, .null i e, rfl⟩, ok⟩
    | bool b => simp only [e] at he; cases he; exact ⟨⟨_, .bool i b e, rfl⟩, ok⟩
    | int b => simp only [e] at he; cases he; exact ⟨⟨_, .int i b e, rfl⟩, ok⟩
    | real m p => simp only [e] at he; cases he; exact ⟨⟨_, .real i m p e, rfl⟩, ok⟩
    | name n => simp only [e] at he; cases he; exact ⟨⟨_, .name i n e, rfl⟩, ok⟩
    | str x v d =>
      cases x <;> simp only [e] at he <;> cases he
      · exact ⟨⟨_, .lit i v d e, rfl⟩, ok⟩
      · exact ⟨⟨_, .hex i v d e, rfl⟩, ok⟩

/-! ### Histories -/

theorem setInitialized_more (f : Nat) : ∀ (h : Heap) (i : Id) (h' : Heap), setInitialized f h i true = .ok h' →
    ∀ k, (h'.node k).cache = (h.node k).cache ∧ ((h.node k).init = true → (h'.node k).init = true) := by
  induction f with
  | zero => intro h i h' he; cases he
  | succ f ih =>
    intro h i h' he k
    have h0 : ((h.modify i fun n => { n with init := true }).node k).cache = (h.node k).cache ∧
        ((h.node k).init = true → ((h.modify i fun n => { n with init := true }).node k).init = true) := by
      rw [modify_node]; split <;> simp
    have tr : ∀ a b c : Heap, ((b.node k).cache = (a.node k).cache ∧ ((a.node k).init = true → (b.node k).init = true)) →
        ((c.node k).cache = (b.node k).cache ∧ ((b.node k).init = true → (c.node k).init = true)) →
        ((c.node k).cache = (a.node k).cache ∧ ((a.node k).init = true → (c.node k).init = true)) :=
      fun a b c x y => ⟨y.1.trans x.1, fun h => y.2 (x.2 h)⟩
    rw [setInitialized] at he
    split at he
    · exact tr _ _ _ h0 (foldlM_rel (R := fun a b : Heap => (b.node k).cache = (a.node k).cache ∧
        ((a.node k).init = true → (b.node k).init = true)) (fun _ => ⟨rfl, fun h => h⟩) tr _
        (fun x a y _ hy => ih x a y hy k) _ _ he)
    · exact tr _ _ _ h0 (foldlM_rel (R := fun a b : Heap => (b.node k).cache = (a.node k).cache ∧
        ((a.node k).init = true → (b.node k).init = true)) (fun _ => ⟨rfl, fun h => h⟩) tr _
        (fun x a y _ hy => ih x a.2 y hy k) _ _ he)
    · cases he; exact h0

/-- An edit of something that is not in a container and has no cache. -/
theorem hashOk_loose {H : StdHash} {h : Heap} (ok : HashOk H h) (j : Id) (b : Body) (hj : (h.node j).body.cacheable = false)
    (hn : ∀ c, ¬Inside h c j) : HashOk H (h.setBody j b) := by
  refine ok.edit fun c hc => ⟨setBody_cache h j c b, fun k hk => ?_, fun k _ hi => by rw [setBody_init]; exact hi⟩
  rw [setBody_cache] at hc
  rw [setBody_node, if_neg]
  rintro rfl
  rcases hk with rfl | hk
  · rw [(ok _ hc).1] at hj; cases hj
  · exact hn c hk

theorem step_hashOk (H : StdHash) (f : Nat) {h : Heap} (w : Wired h) (cl : Bounded h) (ok : HashOk H h) (op : Op)
    (hp : HashSafe H f h op) : HashOk H (step H f h op).1 := by
  obtain ⟨pr, nt, cond⟩ := hp
  cases op with
  | create b =>
    refine ok.edit fun c hc => ?_
    rw [(step_create H f h b).2] at hc ⊢
    split at hc
    · cases b <;> exact absurd rfl hc
    · rename_i hcn
      rw [if_neg hcn]
      refine ⟨rfl, fun k hk => ?_, fun k hk hi => ?_⟩
      · rw [(step_create H f h b).2, if_neg]
        rintro rfl
        rcases hk with hk | hk
        · exact hcn hk.symm
        · exact absurd (inside_bound cl hk) (Nat.lt_irrefl _)
      · rw [(step_create H f h b).2, if_neg (Nat.ne_of_lt (inside_bound cl hk))]; exact hi
  | setInit i b =>
    have cond : b = true := cond
    subst cond
    simp only [step]
    split
    · rename_i h' he
      refine ok.edit fun c hc => ⟨(setInitialized_more f _ _ _ he c).1, fun k _ => ?_,
        fun k _ hi => (setInitialized_more f _ _ _ he k).2 hi⟩
      rw [(setInitialized_bodies f _ _ _ _ he).body]
    · exact ok
  | hash i =>
    simp only [step]
    split
    · exact (hashNode_good H f _ _ _ _ (by assumption) ok cond).2
    · exact ok
  | setBool i b =>
    cases e : (h.node i).body <;> simp only [step, e] at nt ⊢ <;> first | exact ok | skip
    exact hashOk_changed w (editAt_setBody _ _ _) (fun k => setBody_cache _ _ _ _) ok nt
  | setInt i b =>
    cases e : (h.node i).body <;> simp only [step, e] at nt ⊢ <;> first | exact ok | skip
    exact hashOk_loose ok i _ (by rw [e]; rfl) (cond rfl)
  | setReal i m p =>
    cases e : (h.node i).body <;> simp only [step, e] at nt ⊢ <;> first | exact ok | skip
    exact hashOk_loose ok i _ (by rw [e]; rfl) (cond rfl)
  | setName i b =>
    cases e : (h.node i).body <;> simp only [step, e] at nt ⊢ <;> first | exact ok | skip
    exact hashOk_changed w (editAt_setBody _ _ _) (fun k => setBody_cache _ _ _ _) ok nt
  | setString i b =>
    cases e : (h.node i).body <;> simp only [step, e] at nt ⊢ <;> first | exact ok | skip
    rename_i x v d
    cases d with
    | true => exact hashOk_changed w (editAt_setBody _ _ _) (fun k => setBody_cache _ _ _ _) ok nt
    | false => exact hashOk_loose ok i _ (by rw [e]; rfl) (cond (by simp [unnoticed, e]))
  | getString i =>
    cases e : (h.node i).body <;> simp only [step, e] at nt ⊢ <;> first | exact ok | skip
    refine ok.edit fun c hc => ⟨setBody_cache _ _ _ _, fun k hk => ?_, fun k _ hi => by rw [setBody_init]; exact hi⟩
    rw [setBody_node]; split
    · rename_i hk; rw [hk, e]; rfl
    · rfl
  | setRef i n g =>
    cases e : (h.node i).body <;> simp only [step, e] at nt ⊢ <;> first | exact ok | skip
    exact hashOk_changed w (editAt_setBody _ _ _) (fun k => setBody_cache _ _ _ _) ok nt
  | append a v =>
    cases e : (h.node a).body <;> simp only [step, e] at nt ⊢ <;> first | exact ok | skip
    exact hashOk_changed w (editAt_add _ _ _ _) (fun k => by rw [subscribe_cache, setBody_cache]) ok nt
  | insertAt a k v =>
    cases e : (h.node a).body <;> simp only [step, e] at nt ⊢ <;> first | exact ok | skip
    rename_i l
    by_cases hk : k > l.length
    · rw [if_pos hk]; exact ok
    · rw [if_neg hk] at nt ⊢
      exact hashOk_changed w (editAt_add _ _ _ _) (fun k => by rw [subscribe_cache, setBody_cache]) ok nt
  | setAt a k v =>
    cases e : (h.node a).body <;> simp only [step, e] at nt ⊢ <;> first | exact ok | skip
    rename_i l
    by_cases hk : k ≥ l.length
    · rw [if_pos hk]; exact ok
    · rw [if_neg hk] at nt ⊢
      exact hashOk_changed w (editAt_add _ _ _ _) (fun k => by rw [subscribe_cache, setBody_cache]) ok nt
  | removeAt a k =>
    cases e : (h.node a).body <;> simp only [step, e] at nt ⊢ <;> first | exact ok | skip
    rename_i l
    cases e2 : l[k]? <;> simp only [e2] at nt ⊢
    · exact ok
    · exact hashOk_changed w (editAt_drop _ _ _ _) (fun k => by rw [setBody_cache, unsubscribe_cache]) ok nt
  | clearArr a => exact cond.elim
  | insert d k v ow =>
    cases e : (h.node d).body <;> simp only [step, e] at nt ⊢ <;> first | exact ok | skip
    rename_i l
    by_cases hk : (!ow && (mapFind k l).isSome) = true
    · rw [if_pos hk]; exact ok
    · rw [if_neg hk] at nt ⊢
      exact hashOk_changed w (editAt_add _ _ _ _) (fun k => by rw [subscribe_cache, setBody_cache]) ok nt
  | remove d k =>
    cases e : (h.node d).body <;> simp only [step, e] at nt ⊢ <;> first | exact ok | skip
    rename_i l
    cases e2 : mapFind k l <;> simp only [e2] at nt ⊢
    · exact ok
    · exact hashOk_changed w (editAt_drop _ _ _ _) (fun k => by rw [setBody_cache, unsubscribe_cache]) ok nt
  | clear d =>
    cases e : (h.node d).body <;> simp only [step, e] at nt ⊢ <;> first | exact ok | skip
    exact hashOk_changed w (editAt_dropAll _ _ _ _) (fun k => by rw [setBody_cache, unsubscribeAll_cache]) ok nt
  | merge d x => exact pr.2.elim
  | setReference x o =>
    cases e : (h.node x).body <;> simp only [step, e] at nt ⊢ <;> first | exact ok | skip
    rename_i old
    have key : ∀ h0 : Heap, (∀ k, (h0.node k).cache = (h.node k).cache) → (∀ k, (h0.node k).body = (h.node k).body) →
        (∀ k, (h0.node k).init = (h.node k).init) →
        HashOk H (((h0.setBody x (.entry (some o))).subscribe o x).modify x fun n => { n with dirty := n.dirty || n.init }) := by
      intro h0 hc hb hi
      have mc : ∀ k, ((((h0.setBody x (.entry (some o))).subscribe o x).modify x
          fun n => { n with dirty := n.dirty || n.init }).node k).cache = (h.node k).cache := by
        intro k
        have : ((((h0.setBody x (.entry (some o))).subscribe o x).modify x
          fun n => { n with dirty := n.dirty || n.init }).node k).cache =
            (((h0.setBody x (.entry (some o))).subscribe o x).node k).cache := by rw [modify_node]; split <;> rfl
        rw [this, subscribe_cache, setBody_cache, hc]
      refine ok.edit fun c hn => ⟨mc c, fun k hk => ?_, fun k _ hik => ?_⟩
      · rw [mc] at hn
        have : k ≠ x := by
          rintro rfl
          obtain ⟨o', ho'⟩ := (ok c hn).2.1
          obtain ⟨o'', ho''⟩ := holds_part ho'.1 hk
          exact holds_no_entry e ho''
        rw [modify_other _ _ this, (subscribe_bodies _ _ _).body, setBody_node, if_neg this, hb]
      · have : ((((h0.setBody x (.entry (some o))).subscribe o x).modify x
          fun n => { n with dirty := n.dirty || n.init }).node k).init =
            (((h0.setBody x (.entry (some o))).subscribe o x).node k).init := by rw [modify_node]; split <;> rfl
        rw [this, subscribe_init, setBody_init, hi]; exact hik
    cases old with
    | none => exact key h (fun _ => rfl) (fun _ => rfl) (fun _ => rfl)
    | some r =>
      exact key (h.unsubscribe r x) (fun k => unsubscribe_cache _ _ _ _) (unsubscribe_bodies _ _ _).body
        (fun k => unsubscribe_init _ _ _ _)

theorem hashReached_reached {H : StdHash} {f : Nat} {h : Heap} (r : HashReached H f h) : Reached H f h := by
  induction r with
  | start => exact .start
  | next h op _ hp ih => exact .next h op ih hp.1

theorem hashReached_ok {H : StdHash} {f : Nat} {h : Heap} (r : HashReached H f h) : HashOk H h := by
  induction r with
  | start => intro c hc; exact absurd rfl hc
  | next h op r hp ih =>
    have := reached_wired (hashReached_reached r)
    exact step_hashOk H f this.1 this.2 ih op hp

end VPdf
