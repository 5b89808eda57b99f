import Verif.Lemmas.Heap
/-
  The effect of one operation on the contents of objects.
-/
namespace VPdf
open Spec

/-- The content of the target after an operation other than `create`. -/
def newBody (h : Heap) (op : Op) : Body :=
  match op, (h.node (op.target h)).body with
  | .setBool _ b, .bool _ => .bool b
  | .setInt _ v, .int _ => .int v
  | .setReal _ m p, .real _ _ => .real m p
  | .setName _ v, .name _ => .name v
  | .setString _ v, .str x _ _ => .str x v true
  | .getString _, .str x v _ => .str x v true
  | .setRef _ n g, .ref _ _ => .ref n g
  | .append _ v, .arr l => .arr (l ++ [v])
  | .insertAt _ k v, .arr l => if k > l.length then .arr l else .arr (l.take k ++ v :: l.drop k)
  | .setAt _ k v, .arr l => if k ≥ l.length then .arr l else .arr (l.set k v)
  | .removeAt _ k, .arr l => match l[k]? with | none => .arr l | some _ => .arr (l.eraseIdx k)
  | .clearArr _, .arr _ => .arr []
  | .insert _ k v ow, .dict l => if !ow && (mapFind k l).isSome then .dict l else .dict (mapInsert k v l)
  | .remove _ k, .dict l => match mapFind k l with | none => .dict l | some _ => .dict (mapErase k l)
  | .clear _, .dict _ => .dict []
  | .merge _ e, .dict l => match (h.node e).body with
    | .dict l' => .dict (l'.foldl (fun m x => mapInsert x.1 x.2 m) l)
    | _ => .dict l
  | .setReference _ o, .entry _ => .entry (some o)
  | _, b => b

theorem setBody_congr {h h' : Heap} (s : SameBodies h h') (i : Id) (b : Body) :
    SameBodies (h.setBody i b) (h'.setBody i b) := by
  refine ⟨s.next, fun k => ?_⟩
  rw [setBody_node, setBody_node, s.body]

theorem setBody_self (h : Heap) (i : Id) : SameBodies (h.setBody i (h.node i).body) h := by
  refine ⟨rfl, fun k => ?_⟩
  rw [setBody_node]; split
  · rename_i e; rw [e]
  · rfl

theorem setBody_self' {h : Heap} {i : Id} {b : Body} (e : (h.node i).body = b) : SameBodies (h.setBody i b) h := by
  rw [← e]; exact setBody_self h i

theorem SameBodies.changed {h h' : Heap} (f : Nat) (i : Id) (s : SameBodies h h') : SameBodies h (changed f h' i).1 :=
  .trans _ _ _ s (changed_frame f h' i).sameBodies

theorem step_bodies (H : StdHash) (f : Nat) (h : Heap) (op : Op) (hc : ∀ b, op ≠ .create b) :
    SameBodies (h.setBody (op.target h) (newBody h op)) (step H f h op).1 := by
  cases op with
  | create b => exact absurd rfl (hc b)
  | setInit i b =>
    have e : newBody h (.setInit i b) = (h.node i).body := rfl
    rw [e]
    refine .trans _ _ _ (setBody_self h i) ?_
    simp only [step]
    split
    · exact setInitialized_bodies f _ _ _ _ (by assumption)
    · exact .refl h
  | hash i =>
    have e : newBody h (.hash i) = (h.node i).body := rfl
    rw [e]
    refine .trans _ _ _ (setBody_self h i) ?_
    simp only [step]
    split
    · exact (hashNode_only H f _ _ _ _ (by assumption)).sameBodies
    · exact .refl h
  | setBool i b =>
    cases e : (h.node i).body <;> simp only [step, newBody, Op.target, e] <;> first | exact setBody_self' e | skip
    exact SameBodies.changed f i (.refl _)
  | setInt i b =>
    cases e : (h.node i).body <;> simp only [step, newBody, Op.target, e] <;> first | exact setBody_self' e | skip
    exact .refl _
  | setReal i m p =>
    cases e : (h.node i).body <;> simp only [step, newBody, Op.target, e] <;> first | exact setBody_self' e | skip
    exact .refl _
  | setName i b =>
    cases e : (h.node i).body <;> simp only [step, newBody, Op.target, e] <;> first | exact setBody_self' e | skip
    exact SameBodies.changed f i (.refl _)
  | setString i b =>
    cases e : (h.node i).body <;> simp only [step, newBody, Op.target, e] <;> first | exact setBody_self' e | skip
    split
    · exact SameBodies.changed f i (by simp_all [SameBodies.refl])
    · simp_all [SameBodies.refl]
    · simp_all
  | getString i =>
    cases e : (h.node i).body <;> simp only [step, newBody, Op.target, e] <;> first | exact setBody_self' e | skip
    exact .refl _
  | setRef i n g =>
    cases e : (h.node i).body <;> simp only [step, newBody, Op.target, e] <;> first | exact setBody_self' e | skip
    exact SameBodies.changed f i (.refl _)
  | append a v =>
    cases e : (h.node a).body <;> simp only [step, newBody, Op.target, e] <;> first | exact setBody_self' e | skip
    exact SameBodies.changed f a (subscribe_bodies _ _ _)
  | insertAt a k v =>
    cases e : (h.node a).body <;> simp only [step, newBody, Op.target, e] <;> first | exact setBody_self' e | skip
    split
    · exact setBody_self' e
    · exact SameBodies.changed f a (subscribe_bodies _ _ _)
  | setAt a k v =>
    cases e : (h.node a).body <;> simp only [step, newBody, Op.target, e] <;> first | exact setBody_self' e | skip
    split
    · exact setBody_self' e
    · exact SameBodies.changed f a (subscribe_bodies _ _ _)
  | removeAt a k =>
    cases e : (h.node a).body <;> simp only [step, newBody, Op.target, e] <;> first | exact setBody_self' e | skip
    rename_i l
    cases e2 : l[k]? <;> simp only
    · exact setBody_self' e
    · exact SameBodies.changed f a (setBody_congr (unsubscribe_bodies _ _ _) _ _)
  | clearArr a =>
    cases e : (h.node a).body <;> simp only [step, newBody, Op.target, e] <;> first | exact setBody_self' e | skip
    exact .refl _
  | insert d k v ow =>
    cases e : (h.node d).body <;> simp only [step, newBody, Op.target, e] <;> first | exact setBody_self' e | skip
    split
    · exact setBody_self' e
    · exact SameBodies.changed f d (subscribe_bodies _ _ _)
  | remove d k =>
    cases e : (h.node d).body <;> simp only [step, newBody, Op.target, e] <;> first | exact setBody_self' e | skip
    rename_i l
    cases e2 : mapFind k l <;> simp only
    · exact setBody_self' e
    · exact SameBodies.changed f d (setBody_congr (unsubscribe_bodies _ _ _) _ _)
  | clear d =>
    cases e : (h.node d).body <;> simp only [step, newBody, Op.target, e] <;> first | exact setBody_self' e | skip
    exact SameBodies.changed f d (setBody_congr (unsubscribeAll_bodies d _ h) _ _)
  | merge d x =>
    cases e : (h.node d).body <;> simp only [step, newBody, Op.target, e] <;> first | exact setBody_self' e | skip
    cases e2 : (h.node x).body <;> simp only <;> first | exact setBody_self' e | skip
    exact SameBodies.changed f d (.refl _)
  | setReference x o =>
    cases e : (h.node x).body <;> simp only [step, newBody, Op.target, e] <;> first | exact setBody_self' e | skip
    rename_i old
    refine .trans _ _ _ ?_ (modify_bodies _ _ _ fun _ => rfl)
    refine .trans _ _ _ ?_ (subscribe_bodies _ _ _)
    refine setBody_congr ?_ _ _
    cases old with
    | none => exact .refl _
    | some r => exact unsubscribe_bodies _ _ _

theorem step_create (H : StdHash) (f : Nat) (h : Heap) (b : Body) :
    (step H f h (.create b)).1.next = h.next + 1 ∧
    ∀ k, (step H f h (.create b)).1.node k = if k = h.next then newNode b else h.node k := ⟨rfl, fun _ => rfl⟩

theorem step_next (H : StdHash) (f : Nat) (h : Heap) (op : Op) (hc : ∀ b, op ≠ .create b) :
    (step H f h op).1.next = h.next := (step_bodies H f h op hc).next

theorem step_body_target (H : StdHash) (f : Nat) (h : Heap) (op : Op) (hc : ∀ b, op ≠ .create b) :
    ((step H f h op).1.node (op.target h)).body = newBody h op := by
  rw [(step_bodies H f h op hc).body, setBody_node, if_pos rfl]

theorem step_body_other (H : StdHash) (f : Nat) (h : Heap) (op : Op) (k : Id) (hk : k ≠ op.target h) :
    ((step H f h op).1.node k).body = (h.node k).body := by
  cases op with
  | create b => rw [(step_create H f h b).2, if_neg (show ¬k = h.next from hk)]
  | _ => rw [(step_bodies H f h _ (by intro b hb; cases hb)).body, setBody_node, if_neg hk]

/-! ### Maps -/

theorem mapErase_find {α : Type} (k q : Bytes) (l : List (Bytes × α)) :
    mapFind q (mapErase k l) = if q = k then none else mapFind q l := by
  induction l with
  | nil => simp [mapErase, mapFind]
  | cons e l ih =>
    obtain ⟨k', v⟩ := e
    rw [mapErase, List.filter_cons]
    rw [mapErase] at ih
    by_cases h : k' = k
    · subst h
      simp only [bne_self_eq_false, Bool.false_eq_true, if_false]
      rw [ih, mapFind]
      by_cases hq : q = k'
      · simp [hq]
      · simp [hq]
    · rw [if_pos (by simpa using h), mapFind, ih, mapFind]
      by_cases hq : q = k
      · subst hq; simp [Ne.symm h]
      · simp [hq]

theorem mapErase_sorted {α : Type} {k : Bytes} {l : List (Bytes × α)} (h : SortedKeys l) : SortedKeys (mapErase k l) :=
  List.Pairwise.filter _ h

theorem mapMerge_spec {α : Type} (l' l : List (Bytes × α)) (h : SortedKeys l) :
    SortedKeys (l'.foldl (fun m x => mapInsert x.1 x.2 m) l) ∧
    ∀ q, mapFind q (l'.foldl (fun m x => mapInsert x.1 x.2 m) l) =
      match mapFind q l with | some v => some v | none => mapFind q l' := by
  induction l' generalizing l with
  | nil => refine ⟨h, fun q => ?_⟩; rw [List.foldl_nil]; cases mapFind q l <;> rfl
  | cons e l' ih =>
    obtain ⟨k, v⟩ := e
    rw [List.foldl_cons]
    obtain ⟨i1, i2⟩ := ih (mapInsert k v l) (mapInsert_sorted h)
    refine ⟨i1, fun q => ?_⟩
    rw [i2, mapFind_insert h, mapFind]
    by_cases hq : q = k
    · subst hq
      simp only [if_true, beq_self_eq_true]
      cases mapFind q l <;> rfl
    · rw [if_neg hq, if_neg (by simpa using hq)]

/-- The entries of every dictionary are in the order of a `std::map`. -/
def SortedDicts (h : Heap) : Prop := ∀ i l, (h.node i).body = .dict l → SortedKeys l

theorem newBody_sorted {h : Heap} (hs : SortedDicts h) (op : Op) (l : List (Bytes × Id)) (hb : newBody h op = .dict l) :
    SortedKeys l := by
  have old : ∀ l', (h.node (op.target h)).body = .dict l' → SortedKeys l' := fun l' e => hs _ l' e
  unfold newBody at hb
  split at hb
  all_goals first
    | (cases hb; done)
    | (split at hb <;> cases hb; done)
    | skip
  · split at hb <;> cases hb
    · exact old _ (by assumption)
    · exact mapInsert_sorted (old _ (by assumption))
  · split at hb <;> cases hb
    · exact old _ (by assumption)
    · exact mapErase_sorted (old _ (by assumption))
  · cases hb; exact List.Pairwise.nil
  · split at hb <;> cases hb
    · exact (mapMerge_spec _ _ (old _ (by assumption))).1
    · exact old _ (by assumption)
  · exact old _ hb

theorem step_sorted (H : StdHash) (f : Nat) {h : Heap} (hs : SortedDicts h) (op : Op) : SortedDicts (step H f h op).1 := by
  intro i l hl
  by_cases hi : i = op.target h
  · subst hi
    by_cases hc : ∃ b, op = .create b
    · obtain ⟨b, rfl⟩ := hc
      rw [(step_create H f h b).2, Op.target, if_pos rfl] at hl
      cases b <;> simp [newNode] at hl
      subst hl; exact List.Pairwise.nil
    · rw [step_body_target H f h op (fun b hb => hc ⟨b, hb⟩)] at hl
      exact newBody_sorted hs op l hl
  · rw [step_body_other H f h op i hi] at hl
    exact hs i l hl

end VPdf
