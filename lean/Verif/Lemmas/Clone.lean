import Verif.Lemmas.Values
/-
  Clones.
-/
namespace VPdf
open Spec

/-- The heap `h'` is `h` with new objects from `h.next` on, which hold only new objects. -/
structure Extended (h h' : Heap) : Prop where
  lt : h.next < h'.next
  old : ∀ k, k < h.next → (h'.node k).body.strip = (h.node k).body.strip
  range : ∀ k, h.next ≤ k → k < h'.next → ∀ m ∈ (h'.node k).body.children, h.next < m ∧ m < h'.next
  rest : ∀ k, h'.next ≤ k → (h'.node k).body = (h.node k).body

theorem Extended.closed {h h' : Heap} (cl : Bounded h) (x : Extended h h') : Bounded h' := by
  intro k m hm
  by_cases h1 : k < h.next
  · rw [strip_children (x.old k h1)] at hm
    exact Nat.lt_trans (cl k m hm) x.lt
  · by_cases h2 : k < h'.next
    · exact (x.range k (Nat.le_of_not_lt h1) h2 m hm).2
    · rw [x.rest k (Nat.le_of_not_lt h2)] at hm
      exact Nat.lt_trans (cl k m hm) x.lt

theorem Extended.holds_old {h h' : Heap} (cl : Bounded h) (x : Extended h h') {i : Id} {o : Obj} (hi : i < h.next)
    (y : HasValue h i o) : HasValue h' i o :=
  holds_congr (fun k => k < h.next) (fun k _ m hm => cl k m hm) (fun k hk => x.old k hk) y hi

theorem Extended.holds_back {h h' : Heap} (cl : Bounded h) (x : Extended h h') {i : Id} {o : Obj} (hi : i < h.next)
    (y : HasValue h' i o) : HasValue h i o :=
  holds_congr (fun k => k < h.next)
    (fun k hk m hm => by rw [strip_children (x.old k hk)] at hm; exact cl k m hm) (fun k hk => (x.old k hk).symm) y hi

/-- A clone in the middle of the loop over the items of a container at `h.next`. -/
theorem Extended.grow {h hc h2 : Heap} (x : Extended h hc) (y : Extended hc h2) (b : Body)
    (hb : ∀ m ∈ b.children, m = hc.next ∨ m ∈ (hc.node h.next).body.children) :
    Extended h ((h2.setBody h.next b).subscribe hc.next h.next) ∧
    (∀ m o, h.next < m → m < hc.next → HasValue hc m o → HasValue ((h2.setBody h.next b).subscribe hc.next h.next) m o) ∧
    (∀ o, HasValue h2 hc.next o → HasValue ((h2.setBody h.next b).subscribe hc.next h.next) hc.next o) := by
  have bod : ∀ k, (((h2.setBody h.next b).subscribe hc.next h.next).node k).body = if k = h.next then b else (h2.node k).body := by
    intro k; rw [(subscribe_bodies _ _ _).body, setBody_node]
  have xl := x.lt
  have yl := y.lt
  have nx : ((h2.setBody h.next b).subscribe hc.next h.next).next = h2.next := rfl
  have own : ∀ m ∈ b.children, h.next < m ∧ m < h2.next := by
    intro m hm
    rcases hb m hm with rfl | hm
    · exact ⟨xl, yl⟩
    · have := x.range h.next (Nat.le_refl _) xl m hm
      exact ⟨this.1, Nat.lt_trans this.2 yl⟩
  refine ⟨⟨?_, ?_, ?_, ?_⟩, ?_, ?_⟩
  · rw [nx]; exact Nat.lt_trans xl yl
  · intro k hk
    rw [bod, if_neg (Nat.ne_of_lt hk), y.old k (Nat.lt_trans hk xl), x.old k hk]
  · intro k h1 hk m hm
    rw [nx] at hk ⊢
    rw [bod] at hm
    split at hm
    · exact own m hm
    · by_cases hkc : k < hc.next
      · rw [strip_children (y.old k hkc)] at hm
        have := x.range k h1 hkc m hm
        exact ⟨this.1, Nat.lt_trans this.2 yl⟩
      · have := y.range k (Nat.le_of_not_lt hkc) hk m hm
        exact ⟨Nat.lt_trans xl this.1, this.2⟩
  · intro k hk
    rw [nx] at hk
    have h1 : hc.next ≤ k := Nat.le_of_lt (Nat.lt_of_lt_of_le yl hk)
    rw [bod, if_neg (Nat.ne_of_gt (Nat.lt_of_lt_of_le xl h1)), y.rest k hk, x.rest k h1]
  · intro m o h1 h2' hh
    refine holds_congr (fun k => h.next < k ∧ k < hc.next) ?_ ?_ hh ⟨h1, h2'⟩
    · rintro k ⟨k1, k2⟩ m hm
      exact x.range k (Nat.le_of_lt k1) k2 m hm
    · rintro k ⟨k1, k2⟩
      rw [bod, if_neg (Nat.ne_of_gt k1), y.old k k2]
  · intro o hh
    refine holds_congr (fun k => hc.next ≤ k ∧ k < h2.next) ?_ ?_ hh ⟨Nat.le_refl _, yl⟩
    · rintro k ⟨k1, k2⟩ m hm
      have := y.range k k1 k2 m hm
      exact ⟨Nat.le_of_lt this.1, this.2⟩
    · rintro k ⟨k1, k2⟩
      rw [bod, if_neg (Nat.ne_of_gt (Nat.lt_of_lt_of_le xl k1))]

theorem except_bind_ok {α β : Type} {x : Res α} {g : α → Res β} {b : β} (h : (x >>= g) = .ok b) :
    ∃ a, x = .ok a ∧ g a = .ok b := by
  cases x with
  | error e => cases h
  | ok a => exact ⟨a, rfl, h⟩

/-- What `clone` does. -/
def CloneGood (f : Nat) : Prop := ∀ (h : Heap) (i c : Id) (h' : Heap), clone f h i = .ok (c, h') → Bounded h → SortedDicts h →
  i < h.next → c = h.next ∧ Extended h h' ∧ SortedDicts h' ∧ ∃ o, HasValue h i o ∧ HasValue h' c o

theorem holdsItems_append {h : Heap} {l l' : List Id} {os os' : List Obj} (x : HasItems h l os) (y : HasItems h l' os') :
    HasItems h (l ++ l') (os ++ os') := by
  induction l generalizing os with
  | nil => cases x; exact y
  | cons a l ih => cases x with | cons _ o _ os a t => exact .cons _ _ _ _ a (ih t)

theorem holdsEntries_append {h : Heap} {l l' : List (Bytes × Id)} {os os' : List (Bytes × Obj)} (x : HasEntries h l os)
    (y : HasEntries h l' os') : HasEntries h (l ++ l') (os ++ os') := by
  induction l generalizing os with
  | nil => cases x; exact y
  | cons a l ih => cases x with | cons _ _ o _ os a t => exact .cons _ _ _ _ _ a (ih t)

theorem holdsItems_map {h h' : Heap} : ∀ {l : List Id} {os : List Obj}, HasItems h l os →
    (∀ m ∈ l, ∀ o, HasValue h m o → HasValue h' m o) → HasItems h' l os
  | _, _, .nil, _ => .nil
  | _, _, .cons i o is os a t, f =>
    .cons i o is os (f i (List.mem_cons_self ..) o a) (holdsItems_map t fun m hm => f m (List.mem_cons_of_mem _ hm))

theorem holdsEntries_map {h h' : Heap} : ∀ {l : List (Bytes × Id)} {os : List (Bytes × Obj)}, HasEntries h l os →
    (∀ m ∈ l.map Prod.snd, ∀ o, HasValue h m o → HasValue h' m o) → HasEntries h' l os
  | _, _, .nil, _ => .nil
  | _, _, .cons k i o is os a t, f =>
    .cons k i o is os (f i (List.mem_cons_self ..) o a) (holdsEntries_map t fun m hm => f m (List.mem_cons_of_mem _ hm))

theorem strip_arr {b : Body} {l : List Id} (h : b.strip = (Body.arr l).strip) : b = .arr l := by
  cases b <;> simp_all [Body.strip]
theorem strip_dict {b : Body} {l : List (Bytes × Id)} (h : b.strip = (Body.dict l).strip) : b = .dict l := by
  cases b <;> simp_all [Body.strip]

theorem sorted_setBody {h : Heap} (hs : SortedDicts h) (a v o : Id) (b : Body) (hb : ∀ l, b = .dict l → SortedKeys l) :
    SortedDicts ((h.setBody a b).subscribe v o) := by
  intro i l hl
  rw [(subscribe_bodies _ _ _).body, setBody_node] at hl
  split at hl
  · exact hb l hl
  · exact hs i l hl

/-- The loop of `MixedArrayObject::Clone`. -/
theorem cloneItems_good {f : Nat} (hg : CloneGood f) {h : Heap} (cl : Bounded h) (items : List Id)
    (hi : ∀ m ∈ items, m < h.next) : ∀ (hc h' : Heap) (l : List Id) (os : List Obj),
    items.foldlM (fun (hh : Heap) x => (do
        let (c, hh) ← clone f hh x
        match (hh.node h.next).body with
        | .arr l => pure ((hh.setBody h.next (.arr (l ++ [c]))).subscribe c h.next)
        | _ => throw .conversion : Res Heap)) hc = .ok h' →
    Extended h hc → SortedDicts hc → (hc.node h.next).body = .arr l → HasItems hc l os →
    Extended h h' ∧ SortedDicts h' ∧ ∃ l' os', (h'.node h.next).body = .arr l' ∧ HasItems h items os' ∧
      HasItems h' l' (os ++ os') := by
  induction items with
  | nil => intro hc h' l os he x hs hb y; cases he; exact ⟨x, hs, l, [], hb, .nil, by rwa [List.append_nil]⟩
  | cons m items ih =>
    intro hc h' l os he x hs hb y
    rw [List.foldlM_cons] at he
    have hm := hi m (List.mem_cons_self ..)
    cases e : clone f hc m with
    | error e' => simp only [e] at he; cases he
    | ok q =>
      obtain ⟨c, h2⟩ := q
      simp only [e] at he
      obtain ⟨rfl, y2, s2, o, o1, o2⟩ := hg hc m c h2 e (x.closed cl) hs (Nat.lt_trans hm x.lt)
      have hb2 : (h2.node h.next).body = .arr l := strip_arr (by rw [y2.old _ x.lt, hb])
      rw [ok_bind] at he
      simp only [hb2] at he
      obtain ⟨g1, g2, g3⟩ := x.grow y2 (.arr (l ++ [hc.next])) (by
        intro m hm
        rw [hb]
        simp only [Body.children, List.mem_append, List.mem_singleton] at hm ⊢
        exact hm.symm)
      have lr : ∀ m ∈ l, h.next < m ∧ m < hc.next := fun m hm => x.range h.next (Nat.le_refl _) x.lt m (by rw [hb]; exact hm)
      have y3 := holdsItems_append (holdsItems_map y fun m hm o => g2 m o (lr m hm).1 (lr m hm).2)
        (.cons _ _ _ _ (g3 o o2) .nil)
      obtain ⟨z1, z2, l', os', z3, z4, z5⟩ := ih (fun m hm => hi m (List.mem_cons_of_mem _ hm)) _ h' (l ++ [hc.next]) (os ++ [o]) he g1
        (sorted_setBody s2 _ _ _ _ (by intro l hl; cases hl)) (by rw [(subscribe_bodies _ _ _).body, setBody_node, if_pos rfl]) y3
      refine ⟨z1, z2, l', o :: os', z3, .cons _ _ _ _ (x.holds_back cl hm o1) z4, ?_⟩
      rwa [List.append_assoc] at z5

theorem mapInsert_last {α : Type} (k : Bytes) (v : α) (l : List (Bytes × α)) (h : ∀ e ∈ l, bytesLt e.1 k = true) :
    mapInsert k v l = l ++ [(k, v)] := by
  induction l with
  | nil => rfl
  | cons e l ih =>
    obtain ⟨k', v'⟩ := e
    have h1 : bytesLt k' k = true := h _ (List.mem_cons_self ..)
    rw [mapInsert, if_neg, if_pos h1, ih fun e he => h e (List.mem_cons_of_mem _ he)]
    · rfl
    · intro h2
      have := bytesLt_trans h1 h2
      rw [bytesLt_irrefl] at this; cases this

/-- The loop of `DictionaryObject::Clone`. -/
theorem cloneEntries_good {f : Nat} (hg : CloneGood f) {h : Heap} (cl : Bounded h) (items : List (Bytes × Id))
    (hi : ∀ m ∈ items.map Prod.snd, m < h.next) : ∀ (hc h' : Heap) (l : List (Bytes × Id)) (os : List (Bytes × Obj)),
    items.foldlM (fun (hh : Heap) e => (do
        let (c, hh) ← clone f hh e.2
        match (hh.node h.next).body with
        | .dict l => pure ((hh.setBody h.next (.dict (mapInsert e.1 c l))).subscribe c h.next)
        | _ => throw .conversion : Res Heap)) hc = .ok h' →
    Extended h hc → SortedDicts hc → (hc.node h.next).body = .dict l → HasEntries hc l os →
    SortedKeys items → (∀ e ∈ l, ∀ e' ∈ items, bytesLt e.1 e'.1 = true) →
    Extended h h' ∧ SortedDicts h' ∧ ∃ l' os', (h'.node h.next).body = .dict l' ∧ HasEntries h items os' ∧
      HasEntries h' l' (os ++ os') := by
  induction items with
  | nil => intro hc h' l os he x hs hb y _ _; cases he; exact ⟨x, hs, l, [], hb, .nil, by rwa [List.append_nil]⟩
  | cons m items ih =>
    obtain ⟨k, m⟩ := m
    intro hc h' l os he x hs hb y so lo
    rw [List.foldlM_cons] at he
    have hm : m < h.next := hi m (List.mem_cons_self ..)
    cases e : clone f hc m with
    | error e' => simp only [e] at he; cases he
    | ok q =>
      obtain ⟨c, h2⟩ := q
      simp only [e] at he
      obtain ⟨rfl, y2, s2, o, o1, o2⟩ := hg hc m c h2 e (x.closed cl) hs (Nat.lt_trans hm x.lt)
      have hb2 : (h2.node h.next).body = .dict l := strip_dict (by rw [y2.old _ x.lt, hb])
      rw [ok_bind] at he
      simp only [hb2] at he
      have last := mapInsert_last k hc.next l fun e he => lo e he (k, m) (List.mem_cons_self ..)
      rw [last] at he
      obtain ⟨g1, g2, g3⟩ := x.grow y2 (.dict (l ++ [(k, hc.next)])) (by
        intro m hm
        rw [hb]
        simp only [Body.children, List.map_append, List.mem_append, List.map_cons, List.map_nil, List.mem_singleton] at hm ⊢
        exact hm.symm)
      have lr : ∀ m ∈ l.map Prod.snd, h.next < m ∧ m < hc.next :=
        fun m hm => x.range h.next (Nat.le_refl _) x.lt m (by rw [hb]; exact hm)
      have y3 := holdsEntries_append (holdsEntries_map y fun m hm o => g2 m o (lr m hm).1 (lr m hm).2)
        (.cons k _ _ _ _ (g3 o o2) .nil)
      have so' := List.pairwise_cons.mp so
      obtain ⟨z1, z2, l', os', z3, z4, z5⟩ := ih (fun m hm => hi m (List.mem_cons_of_mem _ hm)) _ h' (l ++ [(k, hc.next)])
        (os ++ [(k, o)]) he g1
        (sorted_setBody s2 _ _ _ _ (by intro l' hl; cases hl; rw [← last]; exact mapInsert_sorted (hs _ _ hb)))
        (by rw [(subscribe_bodies _ _ _).body, setBody_node, if_pos rfl]) y3 so'.2 (by
          intro e he e' he'
          rcases List.mem_append.mp he with he | he
          · exact lo e he e' (List.mem_cons_of_mem _ he')
          · rw [List.mem_singleton.mp he]; exact so'.1 e' he')
      refine ⟨z1, z2, l', (k, o) :: os', z3, .cons _ _ _ _ _ (x.holds_back cl hm o1) z4, ?_⟩
      rwa [List.append_assoc] at z5

/-- A new object without parts. -/
theorem extended_start (h : Heap) (d : Bool) (b : Body) (hb : b.children = []) :
    Extended h { node := fun j => if j = h.next then { body := b, dirty := d } else h.node j, next := h.next + 1 } := by
  refine ⟨Nat.lt_succ_self _, ?_, ?_, ?_⟩
  · intro k hk; dsimp only; rw [if_neg (Nat.ne_of_lt hk)]
  · intro k h1 h2 m hm
    obtain rfl : k = h.next := Nat.le_antisymm (Nat.lt_succ_iff.mp h2) h1
    dsimp only at hm
    rw [if_pos rfl] at hm
    dsimp only at hm
    rw [hb] at hm; cases hm
  · intro k hk; dsimp only; rw [if_neg (Nat.ne_of_gt hk)]

theorem sorted_start {h : Heap} (hs : SortedDicts h) (d : Bool) (b : Body) (hb : ∀ l, b = .dict l → l = []) :
    SortedDicts { node := fun j => if j = h.next then { body := b, dirty := d } else h.node j, next := h.next + 1 } := by
  intro i l hl
  dsimp only at hl
  split at hl
  · rw [hb l hl]; exact List.Pairwise.nil
  · exact hs i l hl

theorem clone_good (f : Nat) : CloneGood f := by
  induction f with
  | zero => intro h i c h' he; cases he
  | succ f ih =>
    intro h i c h' he cl hs hi
    rw [clone] at he
    dsimp only at he
    have leaf : ∀ (d : Bool) (b : Body), b.children = [] → (∀ l, b ≠ .dict l) → (h.node i).body = b →
        (∀ (hh : Heap) (k : Id), (hh.node k).body = b → ∃ o, HasValue hh k o ∧ HasValue h i o) →
        ∀ c h', (h.next, ({ node := fun j => if j = h.next then { body := b, dirty := d } else h.node j, next := h.next + 1 } : Heap)) = (c, h') →
        c = h.next ∧ Extended h h' ∧ SortedDicts h' ∧ ∃ o, HasValue h i o ∧ HasValue h' c o := by
      intro d b h1 h2 h3 h4 c h' h5
      cases h5
      refine ⟨rfl, extended_start h d b h1, sorted_start hs d b (fun l hl => absurd hl (h2 l)), ?_⟩
      obtain ⟨o, x, y⟩ := h4 _ h.next (show (Heap.node { node := fun j => if j = h.next then ({ body := b, dirty := d } : Node) else h.node j, next := h.next + 1 } h.next).body = b by dsimp only; rw [if_pos rfl])
      exact ⟨o, y, x⟩
    cases e : (h.node i).body with
    | entry r => simp only [e] at he; cases he
    | arr items =>
      simp only [e] at he
      obtain ⟨h1, hf, he⟩ := except_bind_ok he
      cases he
      obtain ⟨z1, z2, l', os', z3, z4, z5⟩ := cloneItems_good ih cl items (fun m hm => cl i m (by rw [e]; exact hm)) _ _ [] [] hf
        (extended_start h _ _ rfl) (sorted_start hs _ (.arr []) (by intro l hl; cases hl)) (by dsimp only; rw [if_pos rfl]) .nil
      exact ⟨rfl, z1, z2, .arr os', .arr _ _ _ e z4, .arr _ _ _ z3 z5⟩
    | dict items =>
      simp only [e] at he
      obtain ⟨h1, hf, he⟩ := except_bind_ok he
      cases he
      obtain ⟨z1, z2, l', os', z3, z4, z5⟩ := cloneEntries_good ih cl items (fun m hm => cl i m (by rw [e]; exact hm)) _ _ [] [] hf
        (extended_start h _ _ rfl) (sorted_start hs _ (.dict []) (by intro l hl; cases hl; rfl)) (by dsimp only; rw [if_pos rfl]) .nil
        (hs i items e) (by intro e he; cases he)
      exact ⟨rfl, z1, z2, .dict os', .dict _ _ _ e z4, .dict _ _ _ z3 z5⟩
    | str x v d =>
      simp only [e] at he
      cases he
      have hne : h.next ≠ i := Nat.ne_of_gt hi
      have s : ∀ k, ((({ node := fun j => if j = h.next then { body := .str x v true, dirty := (h.node i).dirty } else h.node j, next := h.next + 1 } : Heap).setBody i (.str x v true)).node k).body.strip
          = (({ node := fun j => if j = h.next then { body := .str x v true, dirty := (h.node i).dirty } else h.node j, next := h.next + 1 } : Heap).node k).body.strip := by
        intro k
        rw [setBody_node]
        split
        · rename_i hk; subst hk
          dsimp only
          rw [if_neg (Ne.symm hne), e]; rfl
        · rfl
      have x0 := extended_start h (h.node i).dirty (.str x v true) rfl
      refine ⟨rfl, ⟨x0.lt, fun k hk => (s k).trans (x0.old k hk), ?_, ?_⟩, ?_, ?_⟩
      · intro k h1 h2 m hm
        rw [strip_children (s k)] at hm
        exact x0.range k h1 h2 m hm
      · intro k hk
        rw [setBody_node, if_neg (Nat.ne_of_gt (Nat.lt_of_lt_of_le (Nat.lt_trans hi (Nat.lt_succ_self _)) hk))]
        exact x0.rest k hk
      · intro k l hl
        rw [setBody_node] at hl
        split at hl
        · cases hl
        · exact sorted_start hs _ (.str x v true) (by intro l hl; cases hl) k l hl
      · have hb : ((({ node := fun j => if j = h.next then { body := .str x v true, dirty := (h.node i).dirty } else h.node j, next := h.next + 1 } : Heap).setBody i (.str x v true)).node h.next).body = .str x v true := by
          rw [setBody_node, if_neg hne]; dsimp only; rw [if_pos rfl]
        cases x with
        | false => exact ⟨_, .lit i v d e, .lit _ v true hb⟩
        | true => exact ⟨_, .hex i v d e, .hex _ v true hb⟩
    | null => simp only [e] at he; exact leaf _ _ rfl (by intro l hl; cases hl) e (fun hh k hk => ⟨_, .null k hk, .null i e⟩) c h' (by cases he; rfl)
    | bool b => simp only [e] at he; exact leaf _ _ rfl (by intro l hl; cases hl) e (fun hh k hk => ⟨_, .bool k b hk, .bool i b e⟩) c h' (by cases he; rfl)
    | int b => simp only [e] at he; exact leaf _ _ rfl (by intro l hl; cases hl) e (fun hh k hk => ⟨_, .int k b hk, .int i b e⟩) c h' (by cases he; rfl)
    | real m p => simp only [e] at he; exact leaf _ _ rfl (by intro l hl; cases hl) e (fun hh k hk => ⟨_, .real k m p hk, .real i m p e⟩) c h' (by cases he; rfl)
    | name n => simp only [e] at he; exact leaf _ _ rfl (by intro l hl; cases hl) e (fun hh k hk => ⟨_, .name k n hk, .name i n e⟩) c h' (by cases he; rfl)
    | ref m p => simp only [e] at he; exact leaf _ _ rfl (by intro l hl; cases hl) e (fun hh k hk => ⟨_, .ref k m p hk, .ref i m p e⟩) c h' (by cases he; rfl)

/-- Operations on other objects leave an object alone. -/
theorem run_others (H : StdHash) (f : Nat) (ops : List Op) : ∀ (h : Heap) (i : Id) (o : Obj), HasValue h i o →
    (∀ (n : Nat) (op : Op), ops[n]? = some op → ∀ k, Part h i k → (op.target (run H f h (ops.take n))) ≠ k) →
    HasValue (run H f h ops) i o := by
  induction ops with
  | nil => intro h i o x _; exact x
  | cons op ops ih =>
    intro h i o x ha
    have hb : ∀ k, Part h i k → ((step H f h op).1.node k).body = (h.node k).body := fun k hk =>
      step_body_other H f h op k (Ne.symm (ha 0 op rfl k hk))
    refine ih _ i o (holds_parts (fun k hk => by rw [hb k hk]) x) fun n op' hn k hk => ?_
    refine ha (n + 1) op' hn k ?_
    rcases hk with rfl | hk
    · exact .inl rfl
    · exact .inr (inside_parts (fun k hk => by rw [hb k hk]) hk)

mutual
/-- Levels of nesting. -/
def levels : Obj → Nat
  | .arr l => levelsItems l + 1
  | .dict l => levelsEntries l + 1
  | _ => 1
def levelsItems : List Obj → Nat
  | [] => 0
  | o :: l => max (levels o) (levelsItems l)
def levelsEntries : List (Bytes × Obj) → Nat
  | [] => 0
  | (_, o) :: l => max (levels o) (levelsEntries l)
end

mutual
/-- Cloning succeeds. -/
theorem clone_ends : ∀ (o : Obj) (f : Nat), levels o ≤ f → ∀ (h : Heap) (i : Id), Bounded h → SortedDicts h → i < h.next →
    HasValue h i o → ∃ c h', clone f h i = .ok (c, h')
  | o, 0, hf, _, _, _, _, _, _ => by cases o <;> simp [levels] at hf
  | .arr os, f + 1, hf, h, i, cl, hs, hi, x => by
    cases x with
    | arr _ items _ e t =>
      rw [levels] at hf
      obtain ⟨h1, hf1⟩ := cloneItems_ends os f (by omega) h cl items (fun m hm => cl i m (by rw [e]; exact hm)) t
        { node := fun j => if j = h.next then { body := .arr [], dirty := (h.node i).dirty } else h.node j, next := h.next + 1 }
        [] [] (extended_start h _ _ rfl) (sorted_start hs _ (.arr []) (by intro l hl; cases hl)) (by dsimp only; rw [if_pos rfl]) .nil
      refine ⟨h.next, h1, ?_⟩
      rw [clone, e]
      dsimp only
      exact congrArg (fun r : Res Heap => r >>= fun h => pure (_, h)) hf1
  | .dict os, f + 1, hf, h, i, cl, hs, hi, x => by
    cases x with
    | dict _ items _ e t =>
      rw [levels] at hf
      obtain ⟨h1, hf1⟩ := cloneEntries_ends os f (by omega) h cl items (fun m hm => cl i m (by rw [e]; exact hm)) t
        { node := fun j => if j = h.next then { body := .dict [], dirty := (h.node i).dirty } else h.node j, next := h.next + 1 }
        [] [] (extended_start h _ _ rfl) (sorted_start hs _ (.dict []) (by intro l hl; cases hl; rfl))
        (by dsimp only; rw [if_pos rfl]) .nil (hs i items e) (by intro e he; cases he)
      refine ⟨h.next, h1, ?_⟩
      rw [clone, e]
      dsimp only
      exact congrArg (fun r : Res Heap => r >>= fun h => pure (_, h)) hf1
  | .null, f + 1, _, h, i, _, _, _, x => by cases x with | null _ e => rw [clone, e]; exact ⟨_, _, rfl⟩
  | .bool _, f + 1, _, h, i, _, _, _, x => by cases x with | bool _ _ e => rw [clone, e]; exact ⟨_, _, rfl⟩
  | .int _, f + 1, _, h, i, _, _, _, x => by cases x with | int _ _ e => rw [clone, e]; exact ⟨_, _, rfl⟩
  | .real _ _, f + 1, _, h, i, _, _, _, x => by cases x with | real _ _ _ e => rw [clone, e]; exact ⟨_, _, rfl⟩
  | .name _, f + 1, _, h, i, _, _, _, x => by cases x with | name _ _ e => rw [clone, e]; exact ⟨_, _, rfl⟩
  | .lit _, f + 1, _, h, i, _, _, _, x => by cases x with | lit _ _ _ e => rw [clone, e]; exact ⟨_, _, rfl⟩
  | .hex _, f + 1, _, h, i, _, _, _, x => by cases x with | hex _ _ _ e => rw [clone, e]; exact ⟨_, _, rfl⟩
  | .ref _ _, f + 1, _, h, i, _, _, _, x => by cases x with | ref _ _ _ e => rw [clone, e]; exact ⟨_, _, rfl⟩
theorem cloneItems_ends : ∀ (os' : List Obj) (f : Nat), levelsItems os' ≤ f → ∀ (h : Heap), Bounded h → ∀ (items : List Id),
    (∀ m ∈ items, m < h.next) → HasItems h items os' → ∀ (hc : Heap) (l : List Id) (os : List Obj),
    Extended h hc → SortedDicts hc → (hc.node h.next).body = .arr l → HasItems hc l os →
    ∃ h', items.foldlM (fun (hh : Heap) x => (do
        let (c, hh) ← clone f hh x
        match (hh.node h.next).body with
        | .arr l => pure ((hh.setBody h.next (.arr (l ++ [c]))).subscribe c h.next)
        | _ => throw .conversion : Res Heap)) hc = .ok h'
  | [], f, _, h, cl, items, hi, t, hc, l, os, x, hs, hb, y => by cases t; exact ⟨hc, rfl⟩
  | o :: os', f, hf, h, cl, items, hi, t, hc, l, os, x, hs, hb, y => by
    cases t with
    | cons m _ items _ hm t =>
      rw [levelsItems] at hf
      have him := hi m (List.mem_cons_self ..)
      obtain ⟨c, h2, e⟩ := clone_ends o f (by omega) hc m (x.closed cl) hs (Nat.lt_trans him x.lt) (x.holds_old cl him hm)
      obtain ⟨h3, hh⟩ := id (show ∃ h3, (do
        let (c, hh) ← clone f hc m
        match (hh.node h.next).body with
        | .arr l => pure ((hh.setBody h.next (.arr (l ++ [c]))).subscribe c h.next)
        | _ => throw .conversion : Res Heap) = .ok h3 by
          obtain ⟨rfl, y2, s2, o', o1, o2⟩ := clone_good f hc m c h2 e (x.closed cl) hs (Nat.lt_trans him x.lt)
          have hb2 : (h2.node h.next).body = .arr l := strip_arr (by rw [y2.old _ x.lt, hb])
          simp only [e, ok_bind, hb2]
          exact ⟨_, rfl⟩)
      obtain ⟨z1, z2, l', os2, z3, z4, z5⟩ := cloneItems_good (clone_good f) cl [m] (by simpa using him) hc h3 l os
        (by rw [List.foldlM_cons, hh]; rfl) x hs hb y
      obtain ⟨h4, h4e⟩ := cloneItems_ends os' f (by omega) h cl items (fun m hm => hi m (List.mem_cons_of_mem _ hm)) t h3 l' _ z1 z2 z3 z5
      exact ⟨h4, by rw [List.foldlM_cons, hh]; exact h4e⟩
theorem cloneEntries_ends : ∀ (os' : List (Bytes × Obj)) (f : Nat), levelsEntries os' ≤ f → ∀ (h : Heap), Bounded h →
    ∀ (items : List (Bytes × Id)), (∀ m ∈ items.map Prod.snd, m < h.next) → HasEntries h items os' →
    ∀ (hc : Heap) (l : List (Bytes × Id)) (os : List (Bytes × Obj)),
    Extended h hc → SortedDicts hc → (hc.node h.next).body = .dict l → HasEntries hc l os →
    SortedKeys items → (∀ e ∈ l, ∀ e' ∈ items, bytesLt e.1 e'.1 = true) →
    ∃ h', items.foldlM (fun (hh : Heap) e => (do
        let (c, hh) ← clone f hh e.2
        match (hh.node h.next).body with
        | .dict l => pure ((hh.setBody h.next (.dict (mapInsert e.1 c l))).subscribe c h.next)
        | _ => throw .conversion : Res Heap)) hc = .ok h'
  | [], f, _, h, cl, items, hi, t, hc, l, os, x, hs, hb, y, _, _ => by cases t; exact ⟨hc, rfl⟩
  | (k, o) :: os', f, hf, h, cl, items, hi, t, hc, l, os, x, hs, hb, y, so, lo => by
    cases t with
    | cons _ m _ items _ hm t =>
      rw [levelsEntries] at hf
      have him : m < h.next := hi m (List.mem_cons_self ..)
      obtain ⟨c, h2, e⟩ := clone_ends o f (by omega) hc m (x.closed cl) hs (Nat.lt_trans him x.lt) (x.holds_old cl him hm)
      obtain ⟨h3, hh, hb3⟩ := id (show ∃ h3, (do
        let (c, hh) ← clone f hc (k, m).2
        match (hh.node h.next).body with
        | .dict l => pure ((hh.setBody h.next (.dict (mapInsert (k, m).1 c l))).subscribe c h.next)
        | _ => throw .conversion : Res Heap) = .ok h3 ∧ (h3.node h.next).body = .dict (l ++ [(k, c)]) by
          obtain ⟨rfl, y2, s2, o', o1, o2⟩ := clone_good f hc m c h2 e (x.closed cl) hs (Nat.lt_trans him x.lt)
          have hb2 : (h2.node h.next).body = .dict l := strip_dict (by rw [y2.old _ x.lt, hb])
          have last := mapInsert_last k hc.next l fun e he => lo e he (k, m) (List.mem_cons_self ..)
          simp only [e, ok_bind, hb2, last]
          exact ⟨_, rfl, by rw [(subscribe_bodies _ _ _).body, setBody_node, if_pos rfl]⟩)
      have so' := List.pairwise_cons.mp so
      obtain ⟨z1, z2, l', os2, z3, z4, z5⟩ := cloneEntries_good (clone_good f) cl [(k, m)] (by simpa using him) hc h3 l os
        (by rw [List.foldlM_cons, hh]; rfl) x hs hb y (List.pairwise_singleton ..)
        (fun e he e' he' => lo e he e' (by rw [List.mem_singleton.mp he']; exact List.mem_cons_self ..))
      rw [hb3] at z3
      cases z3
      obtain ⟨h4, h4e⟩ := cloneEntries_ends os' f (by omega) h cl items (fun m hm => hi m (List.mem_cons_of_mem _ hm)) t h3 _ _ z1 z2
        hb3 z5 so'.2 (by
          intro e he e' he'
          rcases List.mem_append.mp he with he | he
          · exact lo e he e' (List.mem_cons_of_mem _ he')
          · rw [List.mem_singleton.mp he]; exact so'.1 e' he')
      exact ⟨h4, by rw [List.foldlM_cons, hh]; exact h4e⟩
end

end VPdf
