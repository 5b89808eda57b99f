import Verif.Lemmas.Notify
import Verif.Lemmas.Compare
/-
  The values of objects in the heap.
-/
namespace VPdf
open Spec

/-- The content without the note whether a string has been decoded. -/
def Body.strip : Body → Body
  | .str x v _ => .str x v false
  | b => b

theorem strip_children {a b : Body} (h : a.strip = b.strip) : a.children = b.children := by
  cases a <;> cases b <;> simp_all [Body.strip, Body.children]

mutual
theorem holds_congr {h h' : Heap} (S : Id → Prop) (hS : ∀ k, S k → ∀ m ∈ (h.node k).body.children, S m)
    (hb : ∀ k, S k → (h'.node k).body.strip = (h.node k).body.strip) :
    ∀ {i : Id} {o : Obj}, HasValue h i o → S i → HasValue h' i o
  | i, _, .null _ e, s => by have := hb i s; rw [e] at this; exact .null i (by cases h2 : (h'.node i).body <;> simp_all [Body.strip])
  | i, _, .bool _ v e, s => by have := hb i s; rw [e] at this; exact .bool i v (by cases h2 : (h'.node i).body <;> simp_all [Body.strip])
  | i, _, .int _ v e, s => by have := hb i s; rw [e] at this; exact .int i v (by cases h2 : (h'.node i).body <;> simp_all [Body.strip])
  | i, _, .real _ m p e, s => by have := hb i s; rw [e] at this; exact .real i m p (by cases h2 : (h'.node i).body <;> simp_all [Body.strip])
  | i, _, .name _ v e, s => by have := hb i s; rw [e] at this; exact .name i v (by cases h2 : (h'.node i).body <;> simp_all [Body.strip])
  | i, _, .lit _ v x e, s => by
    have := hb i s
    rw [e] at this
    cases h2 : (h'.node i).body <;> simp [h2, Body.strip] at this
    obtain ⟨rfl, rfl⟩ := this
    exact .lit i _ _ h2
  | i, _, .hex _ v x e, s => by
    have := hb i s
    rw [e] at this
    cases h2 : (h'.node i).body <;> simp [h2, Body.strip] at this
    obtain ⟨rfl, rfl⟩ := this
    exact .hex i _ _ h2
  | i, _, .ref _ m p e, s => by have := hb i s; rw [e] at this; exact .ref i m p (by cases h2 : (h'.node i).body <;> simp_all [Body.strip])
  | i, _, .arr _ l os e t, s => by
    have := hb i s
    rw [e] at this
    exact .arr i l os (by cases h2 : (h'.node i).body <;> simp_all [Body.strip])
      (holdsItems_congr S hS hb t (fun m hm => hS i s m (by rw [e]; exact hm)))
  | i, _, .dict _ l os e t, s => by
    have := hb i s
    rw [e] at this
    exact .dict i l os (by cases h2 : (h'.node i).body <;> simp_all [Body.strip])
      (holdsEntries_congr S hS hb t (fun m hm => hS i s m (by rw [e]; exact hm)))
theorem holdsItems_congr {h h' : Heap} (S : Id → Prop) (hS : ∀ k, S k → ∀ m ∈ (h.node k).body.children, S m)
    (hb : ∀ k, S k → (h'.node k).body.strip = (h.node k).body.strip) :
    ∀ {l : List Id} {os : List Obj}, HasItems h l os → (∀ m ∈ l, S m) → HasItems h' l os
  | _, _, .nil, _ => .nil
  | _, _, .cons i o is os a t, s =>
    .cons i o is os (holds_congr S hS hb a (s i (List.mem_cons_self ..)))
      (holdsItems_congr S hS hb t (fun m hm => s m (List.mem_cons_of_mem _ hm)))
theorem holdsEntries_congr {h h' : Heap} (S : Id → Prop) (hS : ∀ k, S k → ∀ m ∈ (h.node k).body.children, S m)
    (hb : ∀ k, S k → (h'.node k).body.strip = (h.node k).body.strip) :
    ∀ {l : List (Bytes × Id)} {os : List (Bytes × Obj)}, HasEntries h l os → (∀ m ∈ l.map Prod.snd, S m) → HasEntries h' l os
  | _, _, .nil, _ => .nil
  | _, _, .cons k i o is os a t, s =>
    .cons k i o is os (holds_congr S hS hb a (s i (List.mem_cons_self ..)))
      (holdsEntries_congr S hS hb t (fun m hm => s m (List.mem_cons_of_mem _ hm)))
end

/-- `i` itself or an object in it. -/
def Part (h : Heap) (i k : Id) : Prop := k = i ∨ Inside h i k

theorem inside_snoc {h : Heap} {i k m : Id} (n : Inside h i k) (hm : m ∈ (h.node k).body.children) : Inside h i m := by
  induction n with
  | one c j hj => exact .more c j m hj (.one j m hm)
  | more c x j hx _ ih => exact .more c x m hx (ih hm)

theorem part_closed {h : Heap} {i : Id} : ∀ k, Part h i k → ∀ m ∈ (h.node k).body.children, Part h i m := by
  rintro k (rfl | n) m hm
  · exact .inr (.one _ m hm)
  · exact .inr (inside_snoc n hm)

/-- The value of an object depends only on the contents of its parts. -/
theorem holds_parts {h h' : Heap} {i : Id} {o : Obj} (hb : ∀ k, Part h i k → (h'.node k).body.strip = (h.node k).body.strip)
    (x : HasValue h i o) : HasValue h' i o := holds_congr (Part h i) part_closed hb x (.inl rfl)

theorem inside_parts {h h' : Heap} {i : Id} (hb : ∀ k, Part h i k → (h'.node k).body.strip = (h.node k).body.strip) {j : Id}
    (n : Inside h' i j) : Inside h i j := by
  have key : ∀ {a j : Id}, Inside h' a j → Part h i a → Inside h i j := by
    intro a j n
    induction n with
    | one c j hj =>
      intro p
      rw [strip_children (hb c p)] at hj
      rcases part_closed c p j hj with rfl | n
      · rcases p with rfl | p
        · exact .one _ _ hj
        · exact inside_snoc p hj
      · exact n
    | more c x j hx _ ih =>
      intro p
      rw [strip_children (hb c p)] at hx
      exact ih (part_closed c p x hx)
  exact key n (.inl rfl)

theorem inside_bound {h : Heap} (cl : Bounded h) {i j : Id} (n : Inside h i j) : j < h.next := by
  induction n with
  | one c j hj => exact cl c j hj
  | more c x j _ _ ih => exact ih

mutual
theorem holds_unique {h : Heap} : ∀ {i : Id} {a b : Obj}, HasValue h i a → HasValue h i b → a = b
  | i, _, _, .null _ e, y => by cases y <;> simp_all
  | i, _, _, .bool _ v e, y => by cases y <;> simp_all
  | i, _, _, .int _ v e, y => by cases y <;> simp_all
  | i, _, _, .real _ m p e, y => by cases y <;> simp_all
  | i, _, _, .name _ v e, y => by cases y <;> simp_all
  | i, _, _, .lit _ v x e, y => by cases y <;> simp_all
  | i, _, _, .hex _ v x e, y => by cases y <;> simp_all
  | i, _, _, .ref _ m p e, y => by cases y <;> simp_all
  | i, _, _, .arr _ l os e t, y => by
    cases y with
    | arr _ l' os' e' t' => rw [e] at e'; cases e'; rw [holdsItems_unique t t']
    | _ => simp_all
  | i, _, _, .dict _ l os e t, y => by
    cases y with
    | dict _ l' os' e' t' => rw [e] at e'; cases e'; rw [holdsEntries_unique t t']
    | _ => simp_all
theorem holdsItems_unique {h : Heap} : ∀ {l : List Id} {a b : List Obj}, HasItems h l a → HasItems h l b → a = b
  | _, _, _, .nil, y => by cases y; rfl
  | _, _, _, .cons i o is os a t, y => by
    cases y with | cons _ o' _ os' a' t' => rw [holds_unique a a', holdsItems_unique t t']
theorem holdsEntries_unique {h : Heap} :
    ∀ {l : List (Bytes × Id)} {a b : List (Bytes × Obj)}, HasEntries h l a → HasEntries h l b → a = b
  | _, _, _, .nil, y => by cases y; rfl
  | _, _, _, .cons k i o is os a t, y => by
    cases y with | cons _ _ o' _ os' a' t' => rw [holds_unique a a', holdsEntries_unique t t']
end

end VPdf
