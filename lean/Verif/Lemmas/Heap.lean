import Verif.Spec.Heap
import Verif.Lemmas.Parse
/-
  Lemmas about objects with identity.
-/
namespace VPdf
open Spec

/-! ### Folds -/

theorem foldlM_rel {α β : Type} {R : β → β → Prop} (hr : ∀ b, R b b) (ht : ∀ a b c, R a b → R b c → R a c)
    {g : β → α → Res β} (l : List α) (hg : ∀ b a b', a ∈ l → g b a = .ok b' → R b b') :
    ∀ b b', l.foldlM g b = .ok b' → R b b' := by
  induction l with
  | nil => intro b b' h; cases h; exact hr b
  | cons a l ih =>
    intro b b' h
    rw [List.foldlM_cons] at h
    cases hga : g b a with
    | error e => rw [hga] at h; cases h
    | ok c =>
      rw [hga] at h
      exact ht _ c _ (hg b a c (List.mem_cons_self ..) hga)
        (ih (fun b a b' ha => hg b a b' (List.mem_cons_of_mem _ ha)) c b' h)

theorem foldlM_hit {α β : Type} {R : β → β → Prop} (hr : ∀ b, R b b) (ht : ∀ a b c, R a b → R b c → R a c)
    {g : β → α → Res β} (l : List α) (hg : ∀ b a b', a ∈ l → g b a = .ok b' → R b b') (k : α) (hk : k ∈ l) :
    ∀ b b', l.foldlM g b = .ok b' → ∃ b1 b2, R b b1 ∧ g b1 k = .ok b2 ∧ R b2 b' := by
  induction l with
  | nil => cases hk
  | cons a l ih =>
    intro b b' h
    rw [List.foldlM_cons] at h
    cases hga : g b a with
    | error e => rw [hga] at h; cases h
    | ok c =>
      rw [hga] at h
      have hg' : ∀ b a b', a ∈ l → g b a = .ok b' → R b b' := fun b a b' ha => hg b a b' (List.mem_cons_of_mem _ ha)
      rcases List.mem_cons.mp hk with rfl | hk'
      · exact ⟨b, c, hr b, hga, foldlM_rel hr ht l hg' c b' h⟩
      · obtain ⟨b1, b2, h1, h2, h3⟩ := ih hg' hk' c b' h
        exact ⟨b1, b2, ht _ _ _ (hg b a c (List.mem_cons_self ..) hga) h1, h2, h3⟩

/-! ### What notification leaves alone -/

/-- Nothing but flags and caches has changed: `dirty` may have been set, caches may have been reset. -/
structure Frame (h h' : Heap) : Prop where
  next : h'.next = h.next
  body : ∀ k, (h'.node k).body = (h.node k).body
  init : ∀ k, (h'.node k).init = (h.node k).init
  obs : ∀ k, (h'.node k).observers = (h.node k).observers
  dirty : ∀ k, (h.node k).dirty = true → (h'.node k).dirty = true
  cache : ∀ k, (h'.node k).cache = (h.node k).cache ∨ (h'.node k).cache = 0

theorem Frame.refl (h : Heap) : Frame h h := ⟨rfl, fun _ => rfl, fun _ => rfl, fun _ => rfl, fun _ h => h, fun _ => .inl rfl⟩

theorem Frame.trans (a b c : Heap) (x : Frame a b) (y : Frame b c) : Frame a c := by
  refine ⟨y.next.trans x.next, fun k => (y.body k).trans (x.body k), fun k => (y.init k).trans (x.init k),
    fun k => (y.obs k).trans (x.obs k), fun k h => y.dirty k (x.dirty k h), fun k => ?_⟩
  rcases y.cache k with h | h
  · rw [h]; exact x.cache k
  · exact .inr h

@[simp] theorem modify_next (h : Heap) (i : Id) (f : Node → Node) : (h.modify i f).next = h.next := rfl

theorem modify_node (h : Heap) (i : Id) (f : Node → Node) (k : Id) :
    (h.modify i f).node k = if k = i then f (h.node k) else h.node k := rfl

theorem modify_same (h : Heap) (i : Id) (f : Node → Node) : (h.modify i f).node i = f (h.node i) := by
  rw [modify_node, if_pos rfl]

theorem modify_other (h : Heap) {i k : Id} (f : Node → Node) (hk : k ≠ i) : (h.modify i f).node k = h.node k := by
  rw [modify_node, if_neg hk]

theorem frame_dirty (h : Heap) (i : Id) : Frame h (h.modify i fun n => { n with dirty := true }) := by
  refine ⟨rfl, ?_, ?_, ?_, ?_, ?_⟩ <;> intro k <;> rw [modify_node] <;> split <;> simp_all

theorem frame_reset (h : Heap) (i : Id) : Frame h (h.resetCache i) := by
  refine ⟨rfl, ?_, ?_, ?_, ?_, ?_⟩ <;> intro k <;> rw [Heap.resetCache, modify_node] <;> split <;> simp_all

theorem onChanged_frame (f : Nat) : ∀ (h : Heap) (i : Id) (h' : Heap), onChanged f h i = .ok h' → Frame h h' := by
  induction f with
  | zero => intro h i h' he; cases he
  | succ f ih =>
    intro h i h' he
    rw [onChanged] at he
    split at he
    · cases hf : (h.node i).observers.foldlM (onChanged f) (h.modify i fun n => { n with dirty := true }) with
      | error e => rw [hf] at he; cases he
      | ok h1 =>
        rw [hf] at he; cases he
        exact Frame.trans _ _ _ (frame_dirty h i) (Frame.trans _ _ _
          (foldlM_rel Frame.refl Frame.trans _ (fun b a b' _ => ih b a b') _ _ hf) (frame_reset h1 i))
    · cases he; exact frame_reset h i

/-- `c` can be reached from `j` along observers, through objects that are initialised; `c` itself need not be. -/
inductive UpTo (h : Heap) : Id → Id → Prop where
  | refl (j : Id) : UpTo h j j
  | step (j k c : Id) : (h.node j).init = true → k ∈ (h.node j).observers → UpTo h k c → UpTo h j c

theorem UpTo.frame {h h' : Heap} (fr : Frame h h') {j c : Id} (u : UpTo h j c) : UpTo h' j c := by
  induction u with
  | refl j => exact .refl j
  | step j k c hi ho _ ih => exact .step j k c ((fr.init j).trans hi) (by rw [fr.obs]; exact ho) ih

/-- A notification reaches every observer above: the caches are reset, and initialised objects become dirty. -/
theorem onChanged_up (f : Nat) : ∀ (h : Heap) (j : Id) (h' : Heap), onChanged f h j = .ok h' → ∀ c, UpTo h j c →
    (h'.node c).cache = 0 ∧ ((h.node c).init = true → (h'.node c).dirty = true) := by
  induction f with
  | zero => intro h i h' he; cases he
  | succ f ih =>
    intro h j h' he c u
    rw [onChanged] at he
    cases u with
    | refl =>
      split at he
      · cases hf : (h.node j).observers.foldlM (onChanged f) (h.modify j fun n => { n with dirty := true }) with
        | error e => rw [hf] at he; cases he
        | ok h1 =>
          rw [hf] at he; cases he
          have fr := foldlM_rel Frame.refl Frame.trans _ (fun b a b' _ => onChanged_frame f b a b') _ _ hf
          refine ⟨?_, fun _ => ?_⟩
          · rw [Heap.resetCache, modify_same]
          · rw [Heap.resetCache, modify_same]
            exact fr.dirty j (by rw [modify_same])
      · cases he
        rename_i hn
        exact ⟨by rw [Heap.resetCache, modify_same], fun hi => absurd hi hn⟩
    | step _ k _ hi ho u =>
      rw [if_pos hi] at he
      cases hf : (h.node j).observers.foldlM (onChanged f) (h.modify j fun n => { n with dirty := true }) with
      | error e => rw [hf] at he; cases he
      | ok h1 =>
        rw [hf] at he; cases he
        obtain ⟨b1, b2, r1, hk, r2⟩ := foldlM_hit Frame.refl Frame.trans _
          (fun b a b' _ => onChanged_frame f b a b') k ho _ _ hf
        have r1 := Frame.trans _ _ _ (frame_dirty h j) r1
        have r2 := Frame.trans _ _ _ r2 (frame_reset h1 j)
        obtain ⟨hc, hd⟩ := ih b1 k b2 hk c (u.frame r1)
        refine ⟨?_, fun hi => r2.dirty c (hd ((r1.init c).trans hi))⟩
        rcases r2.cache c with h | h
        · rw [h]; exact hc
        · exact h

theorem changed_frame (f : Nat) (h : Heap) (i : Id) : Frame h (changed f h i).1 := by
  unfold changed
  split
  · exact onChanged_frame f h i _ (by assumption)
  · exact Frame.refl h

/-! ### Contents -/

/-- The same objects with the same contents. -/
structure SameBodies (h h' : Heap) : Prop where
  next : h'.next = h.next
  body : ∀ k, (h'.node k).body = (h.node k).body

theorem SameBodies.refl (h : Heap) : SameBodies h h := ⟨rfl, fun _ => rfl⟩

theorem SameBodies.trans (a b c : Heap) (x : SameBodies a b) (y : SameBodies b c) : SameBodies a c :=
  ⟨y.next.trans x.next, fun k => (y.body k).trans (x.body k)⟩

theorem Frame.sameBodies {h h' : Heap} (f : Frame h h') : SameBodies h h' := ⟨f.next, f.body⟩

theorem modify_bodies (h : Heap) (i : Id) (f : Node → Node) (hf : ∀ n, (f n).body = n.body) :
    SameBodies h (h.modify i f) := by
  refine ⟨rfl, fun k => ?_⟩
  rw [modify_node]; split
  · rw [hf]
  · rfl

theorem subscribe_bodies (h : Heap) (i o : Id) : SameBodies h (h.subscribe i o) := modify_bodies _ _ _ fun _ => rfl
theorem unsubscribe_bodies (h : Heap) (i o : Id) : SameBodies h (h.unsubscribe i o) := modify_bodies _ _ _ fun _ => rfl

theorem unsubscribeAll_bodies (d : Id) (l : List (Bytes × Id)) (h : Heap) :
    SameBodies h (l.foldl (fun h e => h.unsubscribe e.2 d) h) := by
  induction l generalizing h with
  | nil => exact .refl h
  | cons e l ih => exact .trans _ _ _ (unsubscribe_bodies h e.2 d) (ih _)

theorem setInitialized_bodies (f : Nat) : ∀ (h : Heap) (i : Id) (b : Bool) (h' : Heap),
    setInitialized f h i b = .ok h' → SameBodies h h' := by
  induction f with
  | zero => intro h i b h' he; cases he
  | succ f ih =>
    intro h i b h' he
    have h0 : SameBodies h (h.modify i fun n => { n with init := b }) := modify_bodies _ _ _ fun _ => rfl
    rw [setInitialized] at he
    split at he
    · exact .trans _ _ _ h0 (foldlM_rel .refl .trans _ (fun x a y _ => ih x a b y) _ _ he)
    · exact .trans _ _ _ h0 (foldlM_rel .refl .trans _ (fun x a y _ => ih x a.2 b y) _ _ he)
    · cases he; exact h0

/-- Nothing but caches has changed. -/
structure OnlyCaches (h h' : Heap) : Prop where
  next : h'.next = h.next
  body : ∀ k, (h'.node k).body = (h.node k).body
  init : ∀ k, (h'.node k).init = (h.node k).init
  obs : ∀ k, (h'.node k).observers = (h.node k).observers
  dirty : ∀ k, (h'.node k).dirty = (h.node k).dirty

theorem OnlyCaches.refl (h : Heap) : OnlyCaches h h := ⟨rfl, fun _ => rfl, fun _ => rfl, fun _ => rfl, fun _ => rfl⟩

theorem OnlyCaches.trans (a b c : Heap) (x : OnlyCaches a b) (y : OnlyCaches b c) : OnlyCaches a c :=
  ⟨y.next.trans x.next, fun k => (y.body k).trans (x.body k), fun k => (y.init k).trans (x.init k),
    fun k => (y.obs k).trans (x.obs k), fun k => (y.dirty k).trans (x.dirty k)⟩

theorem OnlyCaches.sameBodies {h h' : Heap} (f : OnlyCaches h h') : SameBodies h h' := ⟨f.next, f.body⟩

theorem cache_only (h : Heap) (i : Id) (r : UInt64) : OnlyCaches h (h.modify i fun n => { n with cache := r }) := by
  refine ⟨rfl, ?_, ?_, ?_, ?_⟩ <;> intro k <;> rw [modify_node] <;> split <;> rfl

theorem hashNode_only (H : StdHash) (f : Nat) : ∀ (h : Heap) (i : Id) (v : UInt64) (h' : Heap),
    hashNode H f h i = .ok (v, h') → OnlyCaches h h' := by
  induction f with
  | zero => intro h i b h' he; cases he
  | succ f ih =>
    intro h i v h' he
    rw [hashNode] at he
    split at he
    · split at he
      · cases he; exact .refl h
      · rename_i items _ _
        cases hf : items.foldlM (fun (s : UInt64 × Heap) j => (do
            let (v, h) ← hashNode H f s.2 j
            pure (s.1 ^^^ v, h) : Res (UInt64 × Heap))) (0, h) with
        | error e => rw [hf] at he; cases he
        | ok p =>
          obtain ⟨r, h1⟩ := p
          rw [hf] at he; cases he
          have := foldlM_rel (R := fun (a b : UInt64 × Heap) => OnlyCaches a.2 b.2) (fun b => .refl b.2)
            (fun a b c => .trans a.2 b.2 c.2) items (fun x a y _ hy => by
              cases hn : hashNode H f x.2 a with
              | error e => rw [hn] at hy; cases hy
              | ok q => rw [hn] at hy; cases hy; exact ih _ _ _ _ hn) _ _ hf
          exact .trans _ _ _ this (cache_only h1 i _)
    · split at he
      · cases he; exact .refl h
      · rename_i items _ _
        cases hf : items.foldlM (fun (s : UInt64 × Heap) e => (do
            let (v, h) ← hashNode H f s.2 e.2
            pure (s.1 ^^^ hashBytes H e.1 ^^^ v, h) : Res (UInt64 × Heap))) (0, h) with
        | error e => rw [hf] at he; cases he
        | ok p =>
          obtain ⟨r, h1⟩ := p
          rw [hf] at he; cases he
          have := foldlM_rel (R := fun (a b : UInt64 × Heap) => OnlyCaches a.2 b.2) (fun b => .refl b.2)
            (fun a b c => .trans a.2 b.2 c.2) items (fun x a y _ hy => by
              cases hn : hashNode H f x.2 a.2 with
              | error e => rw [hn] at hy; cases hy
              | ok q => rw [hn] at hy; cases hy; exact ih _ _ _ _ hn) _ _ hf
          exact .trans _ _ _ this (cache_only h1 i _)
    · split at he
      · cases he; exact .refl h
      · cases he; exact cache_only h i _
    · cases he
    · cases he; exact .refl h

theorem setBody_node (h : Heap) (i : Id) (b : Body) (k : Id) :
    ((h.setBody i b).node k).body = if k = i then b else (h.node k).body := by
  rw [Heap.setBody, modify_node]; split <;> rfl

end VPdf
