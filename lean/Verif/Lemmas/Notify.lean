import Verif.Lemmas.HeapSteps
/-
  Subscriptions and notifications.
-/
namespace VPdf
open Spec

/-- Every object in a container has the container as an observer. -/
def Wired (h : Heap) : Prop := ∀ c m, m ∈ (h.node c).body.children → c ∈ (h.node m).observers

/-- The objects in containers exist. -/
def Bounded (h : Heap) : Prop := ∀ c m, m ∈ (h.node c).body.children → m < h.next

theorem subscribe_obs (h : Heap) (i o k x : Id) :
    x ∈ ((h.subscribe i o).node k).observers ↔ x ∈ (h.node k).observers ∨ (k = i ∧ x = o) := by
  rw [Heap.subscribe, modify_node]
  by_cases hk : k = i
  · subst hk
    rw [if_pos rfl]
    simp only [true_and]
    by_cases ho : o ∈ (h.node k).observers
    · rw [if_pos ho]
      constructor
      · exact .inl
      · rintro (h | rfl)
        · exact h
        · exact ho
    · rw [if_neg ho, List.mem_cons, Or.comm]
  · rw [if_neg hk]; simp [hk]

theorem unsubscribe_obs (h : Heap) (i o k x : Id) :
    x ∈ ((h.unsubscribe i o).node k).observers ↔ x ∈ (h.node k).observers ∧ ¬(k = i ∧ x = o) := by
  rw [Heap.unsubscribe, modify_node]
  by_cases hk : k = i
  · subst hk; rw [if_pos rfl]; simp
  · rw [if_neg hk]; simp [hk]

theorem setBody_obs (h : Heap) (i k : Id) (b : Body) : ((h.setBody i b).node k).observers = (h.node k).observers := by
  rw [Heap.setBody, modify_node]; split <;> rfl

theorem setBody_init (h : Heap) (i k : Id) (b : Body) : ((h.setBody i b).node k).init = (h.node k).init := by
  rw [Heap.setBody, modify_node]; split <;> rfl

theorem subscribe_init (h : Heap) (i o k : Id) : ((h.subscribe i o).node k).init = (h.node k).init := by
  rw [Heap.subscribe, modify_node]; split <;> rfl

theorem unsubscribe_init (h : Heap) (i o k : Id) : ((h.unsubscribe i o).node k).init = (h.node k).init := by
  rw [Heap.unsubscribe, modify_node]; split <;> rfl

theorem unsubscribeAll_obs (d : Id) (l : List (Bytes × Id)) (h : Heap) (k x : Id) :
    x ∈ ((l.foldl (fun h e => h.unsubscribe e.2 d) h).node k).observers ↔
      x ∈ (h.node k).observers ∧ ¬(k ∈ l.map Prod.snd ∧ x = d) := by
  induction l generalizing h with
  | nil => simp
  | cons e l ih =>
    rw [List.foldl_cons, ih, unsubscribe_obs]
    simp only [List.map_cons, List.mem_cons]
    constructor
    · rintro ⟨⟨a, b⟩, c⟩
      refine ⟨a, ?_⟩
      rintro ⟨rfl | h1, h2⟩
      · exact b ⟨rfl, h2⟩
      · exact c ⟨h1, h2⟩
    · rintro ⟨a, b⟩
      exact ⟨⟨a, fun c => b ⟨.inl c.1, c.2⟩⟩, fun c => b ⟨.inr c.1, c.2⟩⟩

theorem unsubscribeAll_init (d : Id) (l : List (Bytes × Id)) (h : Heap) (k : Id) :
    ((l.foldl (fun h e => h.unsubscribe e.2 d) h).node k).init = (h.node k).init := by
  induction l generalizing h with
  | nil => rfl
  | cons e l ih => rw [List.foldl_cons, ih, unsubscribe_init]

theorem Wired.frame {h h' : Heap} (w : Wired h) (fr : Frame h h') : Wired h' := by
  intro c m hm
  rw [fr.body] at hm
  rw [fr.obs]; exact w c m hm

theorem Wired.changed {h : Heap} (w : Wired h) (f : Nat) (i : Id) : Wired (changed f h i).1 :=
  w.frame (changed_frame f h i)

theorem Wired.setBody {h : Heap} (w : Wired h) (i : Id) (b : Body)
    (hb : ∀ x ∈ b.children, x ∈ (h.node i).body.children) : Wired (h.setBody i b) := by
  intro c m hm
  rw [setBody_obs]
  rw [setBody_node] at hm
  split at hm
  · rename_i e; subst e; exact w _ m (hb m hm)
  · exact w c m hm

theorem Wired.add {h : Heap} (w : Wired h) (i v : Id) (b : Body)
    (hb : ∀ x ∈ b.children, x = v ∨ x ∈ (h.node i).body.children) : Wired ((h.setBody i b).subscribe v i) := by
  intro c m hm
  rw [(subscribe_bodies _ _ _).body, setBody_node] at hm
  rw [subscribe_obs, setBody_obs]
  split at hm
  · rename_i e; subst e
    rcases hb m hm with rfl | h1
    · exact .inr ⟨rfl, rfl⟩
    · exact .inl (w _ m h1)
  · exact .inl (w c m hm)

theorem Wired.drop {h : Heap} (w : Wired h) (i v : Id) (b : Body)
    (hb : ∀ x ∈ b.children, x ≠ v ∧ x ∈ (h.node i).body.children) : Wired ((h.unsubscribe v i).setBody i b) := by
  intro c m hm
  rw [setBody_node] at hm
  rw [setBody_obs, unsubscribe_obs]
  split at hm
  · rename_i e; subst e
    exact ⟨w _ m (hb m hm).2, fun h => (hb m hm).1 h.1⟩
  · rename_i e
    rw [(unsubscribe_bodies _ _ _).body] at hm
    exact ⟨w c m hm, fun h => e h.2⟩

theorem mapInsert_snd {α : Type} (k : Bytes) (v : α) (l : List (Bytes × α)) (x : α) :
    x ∈ (mapInsert k v l).map Prod.snd → x = v ∨ x ∈ l.map Prod.snd := by
  induction l with
  | nil => intro h; simpa [mapInsert] using h
  | cons e l ih =>
    obtain ⟨k', v'⟩ := e
    rw [mapInsert]
    split
    · intro h; simpa using h
    · split
      · rw [List.map_cons, List.mem_cons, List.map_cons, List.mem_cons]
        rintro (h | h)
        · exact .inr (.inl h)
        · rcases ih h with h | h
          · exact .inl h
          · exact .inr (.inr h)
      · intro h; exact .inr h

theorem mapErase_mem {α : Type} {k : Bytes} {l : List (Bytes × α)} {e : Bytes × α} :
    e ∈ mapErase k l ↔ e ∈ l ∧ e.1 ≠ k := by simp [mapErase]

theorem mapFind_entry {α : Type} {k : Bytes} {v : α} {l : List (Bytes × α)} (h : mapFind k l = some v) : (k, v) ∈ l := by
  induction l with
  | nil => cases h
  | cons e l ih =>
    obtain ⟨k', v'⟩ := e
    rw [mapFind] at h
    split at h
    · rename_i hk; cases h
      rw [eq_of_beq hk]; exact List.mem_cons_self ..
    · exact List.mem_cons_of_mem _ (ih h)

theorem mem_insertAt {α : Type} {l : List α} {k : Nat} {v x : α} (h : x ∈ l.take k ++ v :: l.drop k) : x = v ∨ x ∈ l := by
  rw [List.mem_append, List.mem_cons] at h
  rcases h with h | h | h
  · exact .inr (List.mem_of_mem_take h)
  · exact .inl h
  · exact .inr (List.mem_of_mem_drop h)

/-- The objects in a container after an operation were there before or are mentioned. -/
theorem newBody_children (h : Heap) (op : Op) (hm : ∀ d e, op ≠ .merge d e) (x : Id) (hx : x ∈ (newBody h op).children) :
    x ∈ (h.node (op.target h)).body.children ∨ x ∈ mentions op := by
  unfold newBody at hx
  split at hx <;> try (cases hx; done)
  all_goals (try rename_i e; try rw [e])
  · simp only [Body.children, List.mem_append, List.mem_singleton] at hx
    rcases hx with hx | rfl
    · exact .inl hx
    · exact .inr (by simp [mentions])
  · split at hx
    · exact .inl hx
    · rcases mem_insertAt hx with rfl | hx
      · exact .inr (by simp [mentions])
      · exact .inl hx
  · split at hx
    · exact .inl hx
    · rcases List.mem_or_eq_of_mem_set hx with hx | rfl
      · exact .inl hx
      · exact .inr (by simp [mentions])
  · split at hx
    · exact .inl hx
    · exact .inl (List.mem_of_mem_eraseIdx hx)
  · split at hx
    · exact .inl hx
    · rcases mapInsert_snd _ _ _ _ hx with rfl | hx
      · exact .inr (by simp [mentions])
      · exact .inl hx
  · split at hx
    · exact .inl hx
    · simp only [Body.children, List.mem_map] at hx ⊢
      obtain ⟨a, ha, rfl⟩ := hx
      exact .inl ⟨a, (mapErase_mem.mp ha).1, rfl⟩
  · exact absurd rfl (hm _ _)
  · simp only [Body.children, List.mem_singleton] at hx
    subst hx; exact .inr (by simp [mentions])
  · exact .inl hx

theorem step_closed (H : StdHash) (f : Nat) {h : Heap} (cl : Bounded h) (op : Op) (hp : Proper h op) :
    Bounded (step H f h op).1 := by
  intro c m hm
  by_cases hc : ∃ b, op = .create b
  · obtain ⟨b, rfl⟩ := hc
    rw [(step_create H f h b).2] at hm
    rw [(step_create H f h b).1]
    split at hm
    · cases b <;> simp [newNode, Body.children] at hm
    · exact Nat.lt_succ_of_lt (cl c m hm)
  · have hc : ∀ b, op ≠ .create b := fun b hb => hc ⟨b, hb⟩
    rw [step_next H f h op hc]
    by_cases ht : c = op.target h
    · subst ht
      rw [step_body_target H f h op hc] at hm
      rcases newBody_children h op (by rintro d e rfl; exact hp.2) m hm with h1 | h1
      · exact cl _ m h1
      · exact hp.1 m h1
    · rw [step_body_other H f h op c ht] at hm
      exact cl c m hm

theorem setInitialized_obs (f : Nat) : ∀ (h : Heap) (i : Id) (b : Bool) (h' : Heap),
    setInitialized f h i b = .ok h' → ∀ k, (h'.node k).observers = (h.node k).observers := by
  induction f with
  | zero => intro h i b h' he; cases he
  | succ f ih =>
    intro h i b h' he k
    have h0 : ((h.modify i fun n => { n with init := b }).node k).observers = (h.node k).observers := by
      rw [modify_node]; split <;> rfl
    rw [setInitialized] at he
    split at he
    · rw [← h0]
      exact foldlM_rel (R := fun a b : Heap => (b.node k).observers = (a.node k).observers) (fun _ => rfl)
        (fun _ _ _ x y => y.trans x) _ (fun x a y _ hy => ih x a b y hy k) _ _ he
    · rw [← h0]
      exact foldlM_rel (R := fun a b : Heap => (b.node k).observers = (a.node k).observers) (fun _ => rfl)
        (fun _ _ _ x y => y.trans x) _ (fun x a y _ hy => ih x a.2 b y hy k) _ _ he
    · cases he; exact h0

theorem wired_setReference {h h0 : Heap} {x : Id} (w : Wired h) (hb : SameBodies h h0)
    (ho : ∀ c m, c ≠ x → c ∈ (h.node m).observers → c ∈ (h0.node m).observers) (o : Id) :
    Wired (((h0.setBody x (.entry (some o))).subscribe o x).modify x fun n => { n with dirty := n.dirty || n.init }) := by
  intro c m hm
  rw [(modify_bodies ((h0.setBody x (.entry (some o))).subscribe o x) x
    (fun n => { n with dirty := n.dirty || n.init }) (fun n => rfl)).body, (subscribe_bodies _ _ _).body, setBody_node] at hm
  have hobs : (((((h0.setBody x (.entry (some o))).subscribe o x).modify x
      fun n => { n with dirty := n.dirty || n.init }).node m).observers)
      = (((h0.setBody x (.entry (some o))).subscribe o x).node m).observers := by
    rw [modify_node]; split <;> rfl
  rw [hobs, subscribe_obs, setBody_obs]
  split at hm
  · rename_i hc
    simp only [Body.children, List.mem_singleton] at hm
    exact .inr ⟨hm, hc⟩
  · rename_i hc
    rw [hb.body] at hm
    exact .inl (ho c m hc (w c m hm))

theorem step_wired (H : StdHash) (f : Nat) {h : Heap} (w : Wired h) (cl : Bounded h) (op : Op) (hp : Proper h op) :
    Wired (step H f h op).1 := by
  cases op with
  | create b =>
    intro c m hm
    rw [(step_create H f h b).2] at hm ⊢
    split at hm
    · cases b <;> simp [newNode, Body.children] at hm
    · have := cl c m hm
      rw [if_neg (Nat.ne_of_lt this)]
      exact w c m hm
  | setInit i b =>
    simp only [step]
    split
    · rename_i h' he
      intro c m hm
      rw [setInitialized_obs f _ _ _ _ he]
      rw [(setInitialized_bodies f _ _ _ _ he).body] at hm
      exact w c m hm
    · exact w
  | hash i =>
    simp only [step]
    split
    · rename_i h' he
      have := hashNode_only H f _ _ _ _ he
      intro c m hm
      rw [this.obs]
      rw [this.body] at hm
      exact w c m hm
    · exact w
  | setBool i b =>
    cases e : (h.node i).body <;> simp only [step, e] <;> first | exact w | skip
    exact (w.setBody i _ (by simp [Body.children])).changed f i
  | setInt i b =>
    cases e : (h.node i).body <;> simp only [step, e] <;> first | exact w | skip
    exact w.setBody i _ (by simp [Body.children])
  | setReal i m p =>
    cases e : (h.node i).body <;> simp only [step, e] <;> first | exact w | skip
    exact w.setBody i _ (by simp [Body.children])
  | setName i b =>
    cases e : (h.node i).body <;> simp only [step, e] <;> first | exact w | skip
    exact (w.setBody i _ (by simp [Body.children])).changed f i
  | setString i b =>
    cases e : (h.node i).body <;> simp only [step, e] <;> first | exact w | skip
    split
    · exact (w.setBody i _ (by simp [Body.children])).changed f i
    · exact w.setBody i _ (by simp [Body.children])
    · exact w
  | getString i =>
    cases e : (h.node i).body <;> simp only [step, e] <;> first | exact w | skip
    exact w.setBody i _ (by simp [Body.children])
  | setRef i n g =>
    cases e : (h.node i).body <;> simp only [step, e] <;> first | exact w | skip
    exact (w.setBody i _ (by simp [Body.children])).changed f i
  | append a v =>
    cases e : (h.node a).body <;> simp only [step, e] <;> first | exact w | skip
    refine (w.add a v _ ?_).changed f a
    intro x hx
    rw [e]
    simp only [Body.children, List.mem_append, List.mem_singleton] at hx ⊢
    exact hx.symm
  | insertAt a k v =>
    cases e : (h.node a).body <;> simp only [step, e] <;> first | exact w | skip
    split
    · exact w
    · refine (w.add a v _ ?_).changed f a
      intro x hx
      rw [e]
      exact mem_insertAt hx
  | setAt a k v =>
    cases e : (h.node a).body <;> simp only [step, e] <;> first | exact w | skip
    split
    · exact w
    · refine (w.add a v _ ?_).changed f a
      intro x hx
      rw [e]
      exact (List.mem_or_eq_of_mem_set hx).symm
  | removeAt a k =>
    cases e : (h.node a).body <;> simp only [step, e] <;> first | exact w | skip
    rename_i l
    cases e2 : l[k]? <;> simp only
    · exact w
    · rename_i v
      refine (w.drop a v _ ?_).changed f a
      intro x hx
      rw [e]
      refine ⟨?_, List.mem_of_mem_eraseIdx hx⟩
      rintro rfl
      exact hp.2 l x e e2 hx
  | clearArr a =>
    cases e : (h.node a).body <;> simp only [step, e] <;> first | exact w | skip
    exact w.setBody a _ (by simp [Body.children])
  | insert d k v ow =>
    cases e : (h.node d).body <;> simp only [step, e] <;> first | exact w | skip
    split
    · exact w
    · refine (w.add d v _ ?_).changed f d
      intro x hx
      rw [e]
      exact mapInsert_snd _ _ _ _ hx
  | remove d k =>
    cases e : (h.node d).body <;> simp only [step, e] <;> first | exact w | skip
    rename_i l
    cases e2 : mapFind k l <;> simp only
    · exact w
    · rename_i v
      refine (w.drop d v _ ?_).changed f d
      intro x hx
      rw [e]
      simp only [Body.children, List.mem_map] at hx ⊢
      obtain ⟨⟨k', y⟩, ha, rfl⟩ := hx
      obtain ⟨h1, h2⟩ := mapErase_mem.mp ha
      refine ⟨?_, _, h1, rfl⟩
      rintro rfl
      exact h2 (hp.2 l _ e (mapFind_entry e2) k' h1)
  | clear d =>
    cases e : (h.node d).body <;> simp only [step, e] <;> first | exact w | skip
    rename_i l
    refine Wired.changed ?_ f d
    intro c m hm
    rw [setBody_node] at hm
    rw [setBody_obs, unsubscribeAll_obs]
    split at hm
    · cases hm
    · rename_i hcd
      rw [(unsubscribeAll_bodies d l h).body] at hm
      exact ⟨w c m hm, fun h => hcd h.2⟩
  | merge d x => exact hp.2.elim
  | setReference x o =>
    cases e : (h.node x).body <;> simp only [step, e] <;> first | exact w | skip
    rename_i old
    cases old with
    | none => exact wired_setReference w (.refl h) (fun _ _ _ h => h) o
    | some r =>
      exact wired_setReference w (unsubscribe_bodies _ _ _)
        (fun c m hc hm => (unsubscribe_obs _ _ _ _ _).mpr ⟨hm, fun h => hc h.2⟩) o

theorem reached_wired {H : StdHash} {f : Nat} {h : Heap} (r : Reached H f h) : Wired h ∧ Bounded h := by
  induction r with
  | start => constructor <;> intro c m hm <;> cases hm
  | next h op _ hp ih => exact ⟨step_wired H f ih.1 ih.2 op hp, step_closed H f ih.2 op hp⟩

/-! ### Reaching the enclosing objects -/

/-- The heap after an edit of the object `j`, before the notification: other contents are the same, and no subscription of an
object other than `j` is gone. -/
structure EditAt (j : Id) (h h1 : Heap) : Prop where
  init : ∀ k, (h1.node k).init = (h.node k).init
  body : ∀ k, k ≠ j → (h1.node k).body = (h.node k).body
  obs : ∀ k c, c ≠ j → c ∈ (h.node k).observers → c ∈ (h1.node k).observers

theorem UpTo.snoc {h : Heap} {j x c : Id} (u : UpTo h j x) (hi : (h.node x).init = true) (hc : c ∈ (h.node x).observers) :
    UpTo h j c := by
  induction u with
  | refl j => exact .step j c c hi hc (.refl c)
  | step j k x' hj ho _ ih => exact .step j k c hj ho (ih hi hc)

theorem Nested.init {h : Heap} {c j : Id} (n : Nested h c j) : (h.node c).init = true := by
  cases n <;> assumption

theorem Nested.upTo {j : Id} {h h1 : Heap} (w : Wired h) (ed : EditAt j h h1) {c : Id} (n : Nested h c j) : UpTo h1 j c := by
  induction n with
  | self j _ => exact .refl j
  | inside c x j hi hx n ih =>
    by_cases hc : c = j
    · subst hc; exact .refl c
    · exact (ih ed).snoc ((ed.init x).trans (Nested.init n)) (ed.obs x c hc (w c x hx))

/-- Notification after an edit marks everything around. -/
theorem changed_marks {f : Nat} {j : Id} {h h1 : Heap} (w : Wired h) (ed : EditAt j h h1) {c : Id} (n : Nested h c j) {r : Bool}
    (hr : (changed f h1 j).2 = .ok r) :
    ((changed f h1 j).1.node c).dirty = true ∧ ((changed f h1 j).1.node c).cache = 0 := by
  unfold changed at hr ⊢
  cases e : onChanged f h1 j with
  | error e' => rw [e] at hr; cases hr
  | ok h' =>
    have := onChanged_up f h1 j h' e c (Nested.upTo w ed n)
    exact ⟨this.2 ((ed.init c).trans (Nested.init n)), this.1⟩

theorem editAt_setBody (h : Heap) (j : Id) (b : Body) : EditAt j h (h.setBody j b) :=
  ⟨fun k => setBody_init h j k b, fun k hk => by rw [setBody_node, if_neg hk], fun k c _ hc => by rwa [setBody_obs]⟩

theorem editAt_add (h : Heap) (j v : Id) (b : Body) : EditAt j h ((h.setBody j b).subscribe v j) :=
  ⟨fun k => by rw [subscribe_init, setBody_init],
    fun k hk => by rw [(subscribe_bodies _ _ _).body, setBody_node, if_neg hk],
    fun k c _ hc => by rw [subscribe_obs, setBody_obs]; exact .inl hc⟩

theorem editAt_drop (h : Heap) (j v : Id) (b : Body) : EditAt j h ((h.unsubscribe v j).setBody j b) :=
  ⟨fun k => by rw [setBody_init, unsubscribe_init],
    fun k hk => by rw [setBody_node, if_neg hk, (unsubscribe_bodies _ _ _).body],
    fun k c hcj hc => by rw [setBody_obs, unsubscribe_obs]; exact ⟨hc, fun h => hcj h.2⟩⟩

theorem editAt_dropAll (h : Heap) (j : Id) (l : List (Bytes × Id)) (b : Body) :
    EditAt j h ((l.foldl (fun h e => h.unsubscribe e.2 j) h).setBody j b) :=
  ⟨fun k => by rw [setBody_init, unsubscribeAll_init],
    fun k hk => by rw [setBody_node, if_neg hk, (unsubscribeAll_bodies _ _ _).body],
    fun k c hcj hc => by rw [setBody_obs, unsubscribeAll_obs]; exact ⟨hc, fun h => hcj h.2⟩⟩

/-- Every modification that is not unnoticed marks everything around it and resets the caches. -/
theorem step_marks (H : StdHash) (f : Nat) {h : Heap} (w : Wired h) (op : Op) (hm : modifies op = true)
    (hu : unnoticed h op = false) (hs : ∀ e o, op ≠ .setReference e o) (ho : (step H f h op).2 = .ok true) {c : Id}
    (n : Nested h c (op.target h)) :
    ((step H f h op).1.node c).dirty = true ∧ ((step H f h op).1.node c).cache = 0 := by
  cases op with
  | create b => cases hm
  | setInit i b => cases hm
  | getString i => cases hm
  | hash i => cases hm
  | setInt i b => cases hu
  | setReal i m p => cases hu
  | clearArr a => cases hu
  | setReference x o => exact absurd rfl (hs x o)
  | setBool i b =>
    cases e : (h.node i).body <;> simp only [step, e] at ho ⊢ <;> first | (cases ho; done) | skip
    exact changed_marks w (editAt_setBody _ _ _) n ho
  | setName i b =>
    cases e : (h.node i).body <;> simp only [step, e] at ho ⊢ <;> first | (cases ho; done) | skip
    exact changed_marks w (editAt_setBody _ _ _) n ho
  | setString i b =>
    cases e : (h.node i).body <;> simp only [step, e] at ho ⊢ <;> first | (cases ho; done) | skip
    rename_i x v dec
    simp only [unnoticed, e, Bool.not_eq_false'] at hu
    subst hu
    exact changed_marks w (editAt_setBody _ _ _) n ho
  | setRef i n' g =>
    cases e : (h.node i).body <;> simp only [step, e] at ho ⊢ <;> first | (cases ho; done) | skip
    exact changed_marks w (editAt_setBody _ _ _) n ho
  | append a v =>
    cases e : (h.node a).body <;> simp only [step, e] at ho ⊢ <;> first | (cases ho; done) | skip
    exact changed_marks w (editAt_add _ _ _ _) n ho
  | insertAt a k v =>
    cases e : (h.node a).body <;> simp only [step, e] at ho ⊢ <;> first | (cases ho; done) | skip
    rename_i l
    by_cases hk : k > l.length
    · rw [if_pos hk] at ho; cases ho
    · rw [if_neg hk] at ho ⊢
      exact changed_marks w (editAt_add _ _ _ _) n ho
  | setAt a k v =>
    cases e : (h.node a).body <;> simp only [step, e] at ho ⊢ <;> first | (cases ho; done) | skip
    rename_i l
    by_cases hk : k ≥ l.length
    · rw [if_pos hk] at ho; cases ho
    · rw [if_neg hk] at ho ⊢
      exact changed_marks w (editAt_add _ _ _ _) n ho
  | removeAt a k =>
    cases e : (h.node a).body <;> simp only [step, e] at ho ⊢ <;> first | (cases ho; done) | skip
    rename_i l
    cases e2 : l[k]? <;> simp only [e2] at ho ⊢
    · cases ho
    · exact changed_marks w (editAt_drop _ _ _ _) n ho
  | insert d k v ow =>
    cases e : (h.node d).body <;> simp only [step, e] at ho ⊢ <;> first | (cases ho; done) | skip
    rename_i l
    by_cases hk : (!ow && (mapFind k l).isSome) = true
    · rw [if_pos hk] at ho; cases ho
    · rw [if_neg hk] at ho ⊢
      exact changed_marks w (editAt_add _ _ _ _) n ho
  | remove d k =>
    cases e : (h.node d).body <;> simp only [step, e] at ho ⊢ <;> first | (cases ho; done) | skip
    rename_i l
    cases e2 : mapFind k l <;> simp only [e2] at ho ⊢
    · cases ho
    · exact changed_marks w (editAt_drop _ _ _ _) n ho
  | clear d =>
    cases e : (h.node d).body <;> simp only [step, e] at ho ⊢ <;> first | (cases ho; done) | skip
    exact changed_marks w (editAt_dropAll _ _ _ _) n ho
  | merge d x =>
    cases e : (h.node d).body <;> simp only [step, e] at ho ⊢ <;> first | (cases ho; done) | skip
    cases e2 : (h.node x).body <;> simp only [e2] at ho ⊢ <;> first | (cases ho; done) | skip
    exact changed_marks w (editAt_setBody _ _ _) n ho

/-- Notification ends when the observers are nowhere circular. -/
theorem onChanged_ends (rank : Id → Nat) (f : Nat) : ∀ (h : Heap), (∀ i, ∀ o ∈ (h.node i).observers, rank o < rank i) →
    ∀ i, rank i < f → ∃ h', onChanged f h i = .ok h' := by
  induction f with
  | zero => intro h _ i hi; omega
  | succ f ih =>
    intro h hr i hi
    rw [onChanged]
    split
    · have : ∀ (l : List Id) (h0 : Heap), (∀ o ∈ l, rank o < f) →
          (∀ i, ∀ o ∈ (h0.node i).observers, rank o < rank i) → ∃ h', l.foldlM (onChanged f) h0 = .ok h' := by
        intro l
        induction l with
        | nil => intro h0 _ _; exact ⟨h0, rfl⟩
        | cons o l ihl =>
          intro h0 hl h0r
          obtain ⟨h1, e1⟩ := ih h0 h0r o (hl o (List.mem_cons_self ..))
          have fr := onChanged_frame f _ _ _ e1
          obtain ⟨h2, e2⟩ := ihl h1 (fun o ho => hl o (List.mem_cons_of_mem _ ho)) (fun i o ho => h0r i o (by rwa [fr.obs] at ho))
          refine ⟨h2, ?_⟩
          rw [List.foldlM_cons, e1]; exact e2
      obtain ⟨h1, e1⟩ := this (h.node i).observers (h.modify i fun n => { n with dirty := true })
        (fun o ho => by have := hr i o ho; omega) (fun k o ho => hr k o (by rwa [(frame_dirty h i).obs] at ho))
      exact ⟨_, by rw [e1]; rfl⟩
    · exact ⟨_, rfl⟩

/-! ### Marks stay -/

/-- No mark is taken away. -/
def MarksStay (h h' : Heap) : Prop := ∀ k, (h.node k).dirty = true → (h'.node k).dirty = true

theorem MarksStay.refl (h : Heap) : MarksStay h h := fun _ h => h
theorem MarksStay.trans (a b c : Heap) (x : MarksStay a b) (y : MarksStay b c) : MarksStay a c := fun k h => y k (x k h)

theorem modify_marks (h : Heap) (i : Id) (g : Node → Node) (hg : ∀ n, n.dirty = true → (g n).dirty = true) :
    MarksStay h (h.modify i g) := by
  intro k hk
  rw [modify_node]; split
  · exact hg _ hk
  · exact hk

theorem setBody_marks (h : Heap) (i : Id) (b : Body) : MarksStay h (h.setBody i b) := modify_marks _ _ _ fun _ h => h
theorem subscribe_marks (h : Heap) (i o : Id) : MarksStay h (h.subscribe i o) := modify_marks _ _ _ fun _ h => h
theorem unsubscribe_marks (h : Heap) (i o : Id) : MarksStay h (h.unsubscribe i o) := modify_marks _ _ _ fun _ h => h
theorem changed_marksStay (f : Nat) (h : Heap) (i : Id) : MarksStay h (changed f h i).1 := (changed_frame f h i).dirty

theorem unsubscribeAll_marks (d : Id) (l : List (Bytes × Id)) (h : Heap) :
    MarksStay h (l.foldl (fun h e => h.unsubscribe e.2 d) h) := by
  induction l generalizing h with
  | nil => exact .refl h
  | cons e l ih => exact .trans _ _ _ (unsubscribe_marks h e.2 d) (ih _)

theorem setInitialized_marks (f : Nat) : ∀ (h : Heap) (i : Id) (b : Bool) (h' : Heap),
    setInitialized f h i b = .ok h' → MarksStay h h' := by
  induction f with
  | zero => intro h i b h' he; cases he
  | succ f ih =>
    intro h i b h' he
    have h0 : MarksStay h (h.modify i fun n => { n with init := b }) := modify_marks _ _ _ fun _ h => h
    rw [setInitialized] at he
    split at he
    · exact .trans _ _ _ h0 (foldlM_rel .refl .trans _ (fun x a y _ => ih x a b y) _ _ he)
    · exact .trans _ _ _ h0 (foldlM_rel .refl .trans _ (fun x a y _ => ih x a.2 b y) _ _ he)
    · cases he; exact h0

theorem step_marksStay (H : StdHash) (f : Nat) (h : Heap) (op : Op) (k : Id) (hk : k < h.next)
    (hd : (h.node k).dirty = true) : ((step H f h op).1.node k).dirty = true := by
  have key : (∀ b, op ≠ .create b) → MarksStay h (step H f h op).1 := by
    intro hc
    cases op with
    | create b => exact absurd rfl (hc b)
    | setInit i b =>
      simp only [step]; split
      · exact setInitialized_marks f _ _ _ _ (by assumption)
      · exact .refl h
    | hash i =>
      simp only [step]; split
      · rename_i he
        have := hashNode_only H f _ _ _ _ he
        exact fun k hk => (this.dirty k).trans hk
      · exact .refl h
    | setBool i b =>
      cases e : (h.node i).body <;> simp only [step, e] <;> first | exact .refl h | skip
      exact .trans _ _ _ (setBody_marks h i _) (changed_marksStay f _ i)
    | setInt i b =>
      cases e : (h.node i).body <;> simp only [step, e] <;> first | exact .refl h | skip
      exact setBody_marks h i _
    | setReal i m p =>
      cases e : (h.node i).body <;> simp only [step, e] <;> first | exact .refl h | skip
      exact setBody_marks h i _
    | setName i b =>
      cases e : (h.node i).body <;> simp only [step, e] <;> first | exact .refl h | skip
      exact .trans _ _ _ (setBody_marks h i _) (changed_marksStay f _ i)
    | setString i b =>
      cases e : (h.node i).body <;> simp only [step, e] <;> first | exact .refl h | skip
      split
      · exact .trans _ _ _ (setBody_marks h i _) (changed_marksStay f _ i)
      · exact setBody_marks h i _
      · exact .refl h
    | getString i =>
      cases e : (h.node i).body <;> simp only [step, e] <;> first | exact .refl h | skip
      exact setBody_marks h i _
    | setRef i n g =>
      cases e : (h.node i).body <;> simp only [step, e] <;> first | exact .refl h | skip
      exact .trans _ _ _ (setBody_marks h i _) (changed_marksStay f _ i)
    | append a v =>
      cases e : (h.node a).body <;> simp only [step, e] <;> first | exact .refl h | skip
      exact .trans _ _ _ (setBody_marks h a _) (.trans _ _ _ (subscribe_marks _ v a) (changed_marksStay f _ a))
    | insertAt a k v =>
      cases e : (h.node a).body <;> simp only [step, e] <;> first | exact .refl h | skip
      split
      · exact .refl h
      · exact .trans _ _ _ (setBody_marks h a _) (.trans _ _ _ (subscribe_marks _ v a) (changed_marksStay f _ a))
    | setAt a k v =>
      cases e : (h.node a).body <;> simp only [step, e] <;> first | exact .refl h | skip
      split
      · exact .refl h
      · exact .trans _ _ _ (setBody_marks h a _) (.trans _ _ _ (subscribe_marks _ v a) (changed_marksStay f _ a))
    | removeAt a k =>
      cases e : (h.node a).body <;> simp only [step, e] <;> first | exact .refl h | skip
      rename_i l
      cases e2 : l[k]? <;> simp only
      · exact .refl h
      · exact .trans _ _ _ (unsubscribe_marks h _ a) (.trans _ _ _ (setBody_marks _ a _) (changed_marksStay f _ a))
    | clearArr a =>
      cases e : (h.node a).body <;> simp only [step, e] <;> first | exact .refl h | skip
      exact setBody_marks h a _
    | insert d k v ow =>
      cases e : (h.node d).body <;> simp only [step, e] <;> first | exact .refl h | skip
      split
      · exact .refl h
      · exact .trans _ _ _ (setBody_marks h d _) (.trans _ _ _ (subscribe_marks _ v d) (changed_marksStay f _ d))
    | remove d k =>
      cases e : (h.node d).body <;> simp only [step, e] <;> first | exact .refl h | skip
      rename_i l
      cases e2 : mapFind k l <;> simp only
      · exact .refl h
      · exact .trans _ _ _ (unsubscribe_marks h _ d) (.trans _ _ _ (setBody_marks _ d _) (changed_marksStay f _ d))
    | clear d =>
      cases e : (h.node d).body <;> simp only [step, e] <;> first | exact .refl h | skip
      exact .trans _ _ _ (unsubscribeAll_marks d _ h) (.trans _ _ _ (setBody_marks _ d _) (changed_marksStay f _ d))
    | merge d x =>
      cases e : (h.node d).body <;> simp only [step, e] <;> first | exact .refl h | skip
      cases e2 : (h.node x).body <;> simp only <;> first | exact .refl h | skip
      exact .trans _ _ _ (setBody_marks h d _) (changed_marksStay f _ d)
    | setReference x o =>
      cases e : (h.node x).body <;> simp only [step, e] <;> first | exact .refl h | skip
      rename_i old
      refine .trans _ _ _ ?_ (modify_marks _ _ _ fun n hn => by simp [hn])
      refine .trans _ _ _ ?_ (subscribe_marks _ _ _)
      refine .trans _ _ _ ?_ (setBody_marks _ _ _)
      cases old with
      | none => exact .refl h
      | some r => exact unsubscribe_marks _ _ _
  by_cases hc : ∃ b, op = .create b
  · obtain ⟨b, rfl⟩ := hc
    rw [(step_create H f h b).2, if_neg (Nat.ne_of_lt hk)]
    exact hd
  · exact key (fun b hb => hc ⟨b, hb⟩) k hd

theorem step_next_le (H : StdHash) (f : Nat) (h : Heap) (op : Op) : h.next ≤ (step H f h op).1.next := by
  by_cases hc : ∃ b, op = .create b
  · obtain ⟨b, rfl⟩ := hc
    rw [(step_create H f h b).1]; exact Nat.le_succ _
  · exact Nat.le_of_eq (step_next H f h op (fun b hb => hc ⟨b, hb⟩)).symm

theorem run_marksStay (H : StdHash) (f : Nat) (ops : List Op) : ∀ (h : Heap) (k : Id), k < h.next →
    (h.node k).dirty = true → ((run H f h ops).node k).dirty = true := by
  induction ops with
  | nil => intro h k _ hd; exact hd
  | cons op ops ih =>
    intro h k hk hd
    exact ih _ k (Nat.lt_of_lt_of_le hk (step_next_le H f h op)) (step_marksStay H f h op k hk hd)

end VPdf
