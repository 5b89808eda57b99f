import Verif.Spec.Iterators
import Verif.Lemmas.Parse

/-! # Lemmas on iterators -/
namespace VPdf
open Spec

variable {α : Type}

theorem mem_insertNode (i : Nat) (k : Bytes) (v : α) : ∀ (l : List (Nat × Bytes × α)) (x : Nat × Bytes × α),
    x ∈ insertNode i k v l → x = (i, k, v) ∨ x ∈ l
  | [], x, h => by left; simpa [insertNode] using h
  | (i', k', v') :: rest, x, h => by
    unfold insertNode at h
    split at h
    · simpa using h
    · split at h
      · rcases List.mem_cons.mp h with h | h
        · exact .inr (by simp [h])
        · rcases mem_insertNode i k v rest x h with h | h
          · exact .inl h
          · exact .inr (List.mem_cons_of_mem _ h)
      · exact .inr h

theorem mem_insertNode_of (i : Nat) (k : Bytes) (v : α) : ∀ (l : List (Nat × Bytes × α)) (x : Nat × Bytes × α),
    x ∈ l → x ∈ insertNode i k v l
  | (i', k', v') :: rest, x, h => by
    unfold insertNode
    split
    · exact List.mem_cons_of_mem _ h
    · split
      · rcases List.mem_cons.mp h with h | h
        · simp [h]
        · exact List.mem_cons_of_mem _ (mem_insertNode_of i k v rest x h)
      · exact h

theorem sorted_insertNode (i : Nat) (k : Bytes) (v : α) : ∀ (l : List (Nat × Bytes × α)),
    l.Pairwise (fun a b => bytesLt a.2.1 b.2.1 = true) → (insertNode i k v l).Pairwise fun a b => bytesLt a.2.1 b.2.1 = true
  | [], _ => by simp [insertNode]
  | (i', k', v') :: rest, h => by
    obtain ⟨h1, h2⟩ := List.pairwise_cons.mp h
    unfold insertNode
    split
    · next hlt =>
      refine List.pairwise_cons.mpr ⟨?_, h⟩
      intro b hb
      rcases List.mem_cons.mp hb with rfl | hb
      · exact hlt
      · exact bytesLt_trans hlt (h1 b hb)
    · split
      · next hlt =>
        refine List.pairwise_cons.mpr ⟨?_, sorted_insertNode i k v rest h2⟩
        intro b hb
        rcases mem_insertNode i k v rest b hb with rfl | hb
        · exact hlt
        · exact h1 b hb
      · exact h

theorem ids_insertNode (i : Nat) (k : Bytes) (v : α) : ∀ (l : List (Nat × Bytes × α)), l.Pairwise (fun a b => a.1 ≠ b.1) →
    (∀ n ∈ l, n.1 < i) → (insertNode i k v l).Pairwise fun a b => a.1 ≠ b.1
  | [], _, _ => by simp [insertNode]
  | (i', k', v') :: rest, h, hb => by
    obtain ⟨h1, h2⟩ := List.pairwise_cons.mp h
    unfold insertNode
    split
    · exact List.pairwise_cons.mpr ⟨fun b hb' => Nat.ne_of_gt (hb b hb'), h⟩
    · split
      · refine List.pairwise_cons.mpr ⟨?_, ids_insertNode i k v rest h2 fun n hn => hb n (List.mem_cons_of_mem _ hn)⟩
        intro b hb'
        rcases mem_insertNode i k v rest b hb' with rfl | hb'
        · exact Nat.ne_of_lt (hb _ List.mem_cons_self)
        · exact h1 b hb'
      · exact h

theorem find_insertNode (i : Nat) (k : Bytes) (v : α) (q : Bytes) : ∀ (l : List (Nat × Bytes × α)),
    l.Pairwise (fun a b => bytesLt a.2.1 b.2.1 = true) →
    ((insertNode i k v l).find? fun n => n.2.1 == q).map (·.2.2) =
      if q = k ∧ (l.find? fun n => n.2.1 == k).map (·.2.2) = none then some v else (l.find? fun n => n.2.1 == q).map (·.2.2)
  | [], _ => by
    by_cases h : q = k
    · subst h; simp [insertNode]
    · simp [insertNode, h, Ne.symm h]
  | (i', k', v') :: rest, hs => by
    obtain ⟨h1, h2⟩ := List.pairwise_cons.mp hs
    unfold insertNode
    split
    · next hlt =>
      have hn : ∀ n ∈ (i', k', v') :: rest, n.2.1 ≠ k := by
        intro n hn
        rcases List.mem_cons.mp hn with rfl | hn
        · exact Ne.symm (bytesLt_ne hlt)
        · exact Ne.symm (bytesLt_ne (bytesLt_trans hlt (h1 n hn)))
      have hnone : ((i', k', v') :: rest).find? (fun n => n.2.1 == k) = none := by
        rw [List.find?_eq_none]
        intro n hm
        simpa using hn n hm
      by_cases hq : q = k
      · subst hq
        rw [if_pos ⟨rfl, by rw [hnone]; rfl⟩]
        simp
      · rw [if_neg (fun h => hq h.1), List.find?_cons_of_neg (by simpa using Ne.symm hq)]
    · split
      · next hlt =>
        have hk : ¬ ((k' == k) = true) := by simpa using bytesLt_ne hlt
        by_cases hq : q = k'
        · subst hq
          rw [List.find?_cons_of_pos (by simp), if_neg (fun h => bytesLt_ne hlt h.1), List.find?_cons_of_pos (by simp)]
        · rw [List.find?_cons_of_neg (by simpa using Ne.symm hq), find_insertNode i k v q rest h2,
            List.find?_cons_of_neg (by simpa using hk), List.find?_cons_of_neg (by simpa using Ne.symm hq)]
      · next hn1 hn2 =>
        have hk : k' = k := by
          rcases bytesLt_total k k' with h | h | h
          · exact absurd h hn1
          · exact h.symm
          · exact absurd h hn2
        subst hk
        rw [if_neg]
        rintro ⟨_, h⟩
        simp at h

theorem find_filter (k q : Bytes) (l : List (Nat × Bytes × α)) :
    ((l.filter fun n => n.2.1 != k).find? fun n => n.2.1 == q).map (·.2.2) =
      if q = k then none else (l.find? fun n => n.2.1 == q).map (·.2.2) := by
  rw [List.find?_filter]
  by_cases h : q = k
  · subst h
    rw [if_pos rfl]
    simp
  · rw [if_neg h]
    congr 2
    funext n
    by_cases hn : n.2.1 = q
    · subst hn; simp [h]
    · simp [hn]

/-- One edit keeps the dictionary in order, acts as on the map, and keeps every node it does not remove. -/
theorem edit_spec {d : NodeDict α} (hd : LiveDict d) {e : DictEdit α} (hr : e ≠ .release) :
    ∃ d', d.edit e = .ok d' ∧ LiveDict d' ∧ mapOf d' = editMap (mapOf d) e ∧
      ∀ n ∈ d.nodes, e ≠ .remove n.2.1 → e ≠ .clear → n ∈ d'.nodes := by
  have hne : ¬ d.owners = 0 := Nat.ne_of_gt hd.owned
  cases e with
  | insert k v =>
    refine ⟨_, if_neg hne, ⟨sorted_insertNode _ _ _ _ hd.sorted, ids_insertNode _ _ _ _ hd.ids hd.below, ?_, hd.owned⟩, ?_, ?_⟩
    · intro n hn
      rcases mem_insertNode _ _ _ _ _ hn with rfl | hn
      · exact Nat.lt_succ_self _
      · exact Nat.lt_succ_of_lt (hd.below n hn)
    · funext q
      exact find_insertNode d.fresh k v q d.nodes hd.sorted
    · intro n hn _ _
      exact mem_insertNode_of _ _ _ _ _ hn
  | remove k =>
    refine ⟨_, if_neg hne, ⟨hd.sorted.filter _, hd.ids.filter _, fun n hn => hd.below n (List.mem_filter.mp hn).1, hd.owned⟩, ?_, ?_⟩
    · funext q
      exact find_filter k q d.nodes
    · intro n hn h _
      exact List.mem_filter.mpr ⟨hn, by simpa using fun hk => h (by rw [hk])⟩
  | clear =>
    refine ⟨_, if_neg hne, ⟨List.Pairwise.nil, List.Pairwise.nil, nofun, hd.owned⟩, ?_, ?_⟩
    · funext q; rfl
    · intro n hn _ h; exact absurd rfl h
  | release => exact (hr rfl).elim

theorem edits_spec : ∀ (es : List (DictEdit α)) {d : NodeDict α}, LiveDict d → .release ∉ es →
    ∃ d', d.edits es = .ok d' ∧ LiveDict d' ∧ mapOf d' = es.foldl editMap (mapOf d) ∧
      ∀ n ∈ d.nodes, .remove n.2.1 ∉ es → .clear ∉ es → n ∈ d'.nodes
  | [], d, hd, _ => ⟨d, rfl, hd, rfl, fun _ h _ _ => h⟩
  | e :: es, d, hd, hr => by
    obtain ⟨d1, h1, h2, h3, h4⟩ := edit_spec hd (e := e) (fun h => hr (h ▸ List.mem_cons_self))
    obtain ⟨d2, k1, k2, k3, k4⟩ := edits_spec es h2 (fun h => hr (List.mem_cons_of_mem _ h))
    refine ⟨d2, ?_, k2, ?_, ?_⟩
    · unfold NodeDict.edits; rw [h1]; exact k1
    · rw [k3, h3]; rfl
    · intro n hn hk hc
      exact k4 n (h4 n hn (fun h => hk (h ▸ List.mem_cons_self)) (fun h => hc (h ▸ List.mem_cons_self)))
        (fun h => hk (List.mem_cons_of_mem _ h)) (fun h => hc (List.mem_cons_of_mem _ h))

theorem nodesFrom_split (n : Nat × Bytes × α) (post : List (Nat × Bytes × α)) : ∀ (pre : List (Nat × Bytes × α)),
    (pre ++ n :: post).Pairwise (fun a b => a.1 ≠ b.1) → nodesFrom n.1 (pre ++ n :: post) = some (n :: post)
  | [], _ => by simp [nodesFrom]
  | a :: pre, h => by
    obtain ⟨h1, h2⟩ := List.pairwise_cons.mp h
    show nodesFrom n.1 (a :: (pre ++ n :: post)) = _
    unfold nodesFrom
    rw [if_neg (h1 n (by simp))]
    exact nodesFrom_split n post pre h2

/-- The iterator stands at the first key behind `last`. -/
def Stands (d : NodeDict α) (c : Cursor) (last : Option Bytes) : Prop :=
  ∃ pre post, d.nodes = pre ++ post ∧ (∀ n ∈ pre, ¬ behindKey last n.2.1) ∧ (∀ n ∈ post, behindKey last n.2.1) ∧
    c = post.head?.map (·.1)

theorem mapOf_some {d : NodeDict α} (hd : LiveDict d) {n : Nat × Bytes × α} (hn : n ∈ d.nodes) : mapOf d n.2.1 = some n.2.2 := by
  unfold mapOf
  obtain ⟨pre, post, h⟩ := List.append_of_mem hn
  have hs := hd.sorted
  rw [h] at hs ⊢
  rw [List.find?_append]
  have : pre.find? (fun m => m.2.1 == n.2.1) = none := by
    rw [List.find?_eq_none]
    intro m hm
    have := (List.pairwise_append.mp hs).2.2 m hm n List.mem_cons_self
    simpa using bytesLt_ne this
  rw [this, List.find?_cons_of_pos (by simp)]
  rfl

theorem mem_of_mapOf {d : NodeDict α} {k : Bytes} (h : mapOf d k ≠ none) : ∃ n ∈ d.nodes, n.2.1 = k := by
  unfold mapOf at h
  cases hf : d.nodes.find? (fun n => n.2.1 == k) with
  | none => rw [hf] at h; exact absurd rfl h
  | some n => exact ⟨n, List.mem_of_find?_eq_some hf, by simpa using List.find?_some hf⟩

/-- Behind the node that was shown. -/
theorem stands_next {d : NodeDict α} (hd : LiveDict d) {n : Nat × Bytes × α} (hn : n ∈ d.nodes) :
    ∃ c, d.next (some n.1) = .ok c ∧ Stands d c (some n.2.1) := by
  obtain ⟨pre, post, h⟩ := List.append_of_mem hn
  have hs := hd.sorted
  have hi := hd.ids
  rw [h] at hs hi
  obtain ⟨s1, s2, s3⟩ := List.pairwise_append.mp hs
  obtain ⟨s4, s5⟩ := List.pairwise_cons.mp s2
  refine ⟨post.head?.map (·.1), ?_, pre ++ [n], post, by simp [h], ?_, ?_, rfl⟩
  · unfold NodeDict.next
    rw [if_neg (Nat.ne_of_gt hd.owned), h]
    dsimp only
    rw [nodesFrom_split n post pre hi]
  · intro m hm hb
    have hb := hb _ rfl
    rcases List.mem_append.mp hm with hm | hm
    · rw [bytesLt_asymm (s3 m hm n List.mem_cons_self)] at hb
      exact Bool.noConfusion hb
    · rw [List.mem_singleton.mp hm, bytesLt_irrefl] at hb
      exact Bool.noConfusion hb
  · rintro m hm l ⟨⟩
    exact s4 m hm

/-- Whether a key is behind another. -/
def behindB (last : Option Bytes) (k : Bytes) : Bool :=
  match last with
  | none => true
  | some l => bytesLt l k

theorem behindB_iff {last : Option Bytes} {k : Bytes} : behindB last k = true ↔ behindKey last k := by
  cases last with
  | none => exact ⟨(fun _ _ h => by cases h), fun _ => rfl⟩
  | some l => exact ⟨(fun h _ e => by cases e; exact h), fun h => h l rfl⟩

/-- How many nodes are behind a key. -/
def countBehind (d : NodeDict α) (last : Option Bytes) : Nat := (d.nodes.filter fun n => behindB last n.2.1).length

theorem edits_sublist : ∀ (es : List (DictEdit α)) {d d' : NodeDict α}, (∀ k v, DictEdit.insert k v ∉ es) → d.edits es = .ok d' →
    d'.nodes.Sublist d.nodes
  | [], d, d', _, h => by cases h; exact List.Sublist.refl _
  | e :: es, d, d', hi, h => by
    unfold NodeDict.edits at h
    cases he : d.edit e with
    | error x => rw [he] at h; cases h
    | ok d1 =>
      rw [he] at h
      refine (edits_sublist es (fun k v hm => hi k v (List.mem_cons_of_mem _ hm)) h).trans ?_
      cases e with
      | insert k v => exact absurd List.mem_cons_self (hi k v)
      | remove k =>
        unfold NodeDict.edit at he
        dsimp only at he
        split at he
        · cases he
        · cases he; exact List.filter_sublist
      | clear =>
        unfold NodeDict.edit at he
        dsimp only at he
        split at he
        · cases he
        · cases he; exact List.nil_sublist _
      | release =>
        unfold NodeDict.edit at he
        dsimp only at he
        split at he
        · cases he
        · cases he; exact List.Sublist.refl _

theorem countBehind_next {d d' : NodeDict α} (hs : d'.nodes.Sublist d.nodes) {n : Nat × Bytes × α} (hn : n ∈ d.nodes) {last : Option Bytes}
    (hb : behindKey last n.2.1) : countBehind d' (some n.2.1) < countBehind d last := by
  unfold countBehind
  have h1 : (d'.nodes.filter fun m => behindB (some n.2.1) m.2.1).length ≤ (d.nodes.filter fun m => behindB (some n.2.1) m.2.1).length :=
    (hs.filter _).length_le
  refine Nat.lt_of_le_of_lt h1 ?_
  rw [← List.countP_eq_length_filter, ← List.countP_eq_length_filter]
  obtain ⟨pre, post, h⟩ := List.append_of_mem hn
  have hm : ∀ l : List (Nat × Bytes × α), l.countP (fun m => behindB (some n.2.1) m.2.1) ≤ l.countP fun m => behindB last m.2.1 := by
    intro l
    refine List.countP_mono_left ?_
    intro m _ hm
    rw [behindB_iff] at hm ⊢
    intro l hl
    exact bytesLt_trans (hb l hl) (hm _ rfl)
  rw [h, List.countP_append, List.countP_append, List.countP_cons, List.countP_cons]
  have e1 : behindB (some n.2.1) n.2.1 = false := bytesLt_irrefl _
  have e2 : behindB last n.2.1 = true := behindB_iff.mpr hb
  rw [e1, e2]
  have := hm pre
  have := hm post
  simp only [Bool.false_eq_true, if_false, if_true]
  omega

theorem dict_walk_spec (body : Nat → Bytes × α → List (DictEdit α))
    (hb : ∀ i e, .release ∉ body i e ∧ .remove e.1 ∉ body i e ∧ .clear ∉ body i e) :
    ∀ (fuel round : Nat) (d : NodeDict α) (c : Cursor) (last : Option Bytes), LiveDict d → Stands d c last →
      match d.walk body fuel round c with
      | .ok shown => Walk body round (mapOf d) last shown
      | .error e => e = .timeout ∧ ((∀ i e k v, .insert k v ∉ body i e) → fuel ≤ countBehind d last)
  | 0, _, _, _, _, _, _ => ⟨rfl, fun _ => Nat.zero_le _⟩
  | fuel + 1, round, d, c, last, hd, hc => by
    obtain ⟨pre, post, h, hpre, hpost, hc⟩ := hc
    have hne := Nat.ne_of_gt hd.owned
    cases post with
    | nil =>
      subst hc
      have : d.walk body (fuel + 1) round ((List.head? ([] : List (Nat × Bytes × α))).map (·.1)) = .ok [] := by
        unfold NodeDict.walk NodeDict.isValid
        rw [if_neg hne]
        rfl
      rw [this]
      refine .done fun q hq hb => ?_
      obtain ⟨n, hn, rfl⟩ := mem_of_mapOf hq
      rw [h, List.append_nil] at hn
      exact hpre n hn hb
    | cons n post =>
      subst hc
      have hi := hd.ids
      have hs := hd.sorted
      rw [h] at hi hs
      have hfrom := nodesFrom_split n post pre hi
      rw [← h] at hfrom
      have hn : n ∈ d.nodes := by rw [h]; simp
      obtain ⟨b1, b2, b3⟩ := hb round n.2
      obtain ⟨d', e1, e2, e3, e4⟩ := edits_spec (body round n.2) hd b1
      have hn' := e4 n hn b2 b3
      obtain ⟨c', n1, n2⟩ := stands_next e2 hn'
      have ih := dict_walk_spec body hb fuel (round + 1) d' c' (some n.2.1) e2 n2
      have hstep : d.walk body (fuel + 1) round ((List.head? (n :: post)).map (·.1)) =
          (d'.walk body fuel (round + 1) c').bind fun rest => .ok (n.2 :: rest) := by
        conv => lhs; unfold NodeDict.walk
        have hv : d.isValid (some n.1) = .ok true := by
          unfold NodeDict.isValid
          rw [if_neg hne]
          dsimp only
          rw [hfrom]
          rfl
        have hg : d.getAt (some n.1) = .ok n.2 := by
          unfold NodeDict.getAt
          rw [if_neg hne]
          dsimp only
          rw [hfrom]
        show (d.isValid (some n.1)).bind _ = _
        rw [hv]
        show (d.getAt (some n.1)).bind _ = _
        rw [hg]
        show (d.edits (body round n.2)).bind _ = _
        rw [e1]
        show (d'.next (some n.1)).bind _ = _
        rw [n1]
        rfl
      rw [hstep]
      revert ih
      cases d'.walk body fuel (round + 1) c' with
      | ok rest =>
        intro ih
        refine .show ⟨hpost n List.mem_cons_self, by rw [mapOf_some hd hn]; nofun, ?_⟩ (mapOf_some hd hn) (e3 ▸ ih)
        intro q hq hbq
        obtain ⟨m, hm, rfl⟩ := mem_of_mapOf hq
        rw [h] at hm
        rcases List.mem_append.mp hm with hm | hm
        · exact absurd hbq (hpre m hm)
        · rcases List.mem_cons.mp hm with rfl | hm
          · exact .inl rfl
          · exact .inr ((List.pairwise_cons.mp (List.pairwise_append.mp hs).2.1).1 m hm)
      | error e =>
        rintro ⟨ih1, ih2⟩
        refine ⟨ih1, fun hi => ?_⟩
        have := ih2 hi
        have := countBehind_next (edits_sublist _ (fun k v => hi _ _ k v) e1) hn (hpost n List.mem_cons_self)
        omega

theorem stands_start {d : NodeDict α} : Stands d (d.nodes.head?.map (·.1)) none :=
  ⟨[], d.nodes, rfl, (fun _ h => by cases h), (fun _ _ _ h => by cases h), rfl⟩

/-! ### What follows from a walk -/

theorem walk_sorted {body : Nat → Bytes × α → List (DictEdit α)} {round : Nat} {m : KeyMap α} {last : Option Bytes} {shown : List (Bytes × α)}
    (h : Walk body round m last shown) :
    (∀ e ∈ shown, behindKey last e.1) ∧ shown.Pairwise fun a b => bytesLt a.1 b.1 = true := by
  induction h with
  | done h => exact ⟨nofun, List.Pairwise.nil⟩
  | «show» h hv hr ih =>
    obtain ⟨ih1, ih2⟩ := ih
    refine ⟨?_, List.pairwise_cons.mpr ⟨fun e he => ih1 e he _ rfl, ih2⟩⟩
    intro e he
    rcases List.mem_cons.mp he with rfl | he
    · exact h.1
    · intro l hl
      exact bytesLt_trans (h.1 l hl) (ih1 e he _ rfl)

theorem editMap_kept {k : Bytes} {v : α} : ∀ (es : List (DictEdit α)) (m : KeyMap α), m k = some v → .remove k ∉ es → .clear ∉ es →
    es.foldl editMap m k = some v
  | [], _, h, _, _ => h
  | e :: es, m, h, hr, hc => by
    refine editMap_kept es _ ?_ (fun hm => hr (List.mem_cons_of_mem _ hm)) (fun hm => hc (List.mem_cons_of_mem _ hm))
    cases e with
    | insert k' v' =>
      show (if _ then _ else _) = _
      rw [if_neg]
      · exact h
      · rintro ⟨rfl, h'⟩; rw [h] at h'; cases h'
    | remove k' =>
      show (if _ then _ else _) = _
      rw [if_neg]
      · exact h
      · rintro rfl; exact hr List.mem_cons_self
    | clear => exact absurd List.mem_cons_self hc
    | release => exact h

theorem walk_shows {body : Nat → Bytes × α → List (DictEdit α)} {round : Nat} {m : KeyMap α} {last : Option Bytes} {shown : List (Bytes × α)}
    (h : Walk body round m last shown) {k : Bytes} {v : α} (hk : m k = some v) (hl : behindKey last k)
    (hb : ∀ i e, .remove k ∉ body i e ∧ .clear ∉ body i e) : (k, v) ∈ shown := by
  induction h with
  | done h => exact absurd hl (h k (by rw [hk]; nofun))
  | «show» h hv hr ih =>
    rcases h.2.2 k (by rw [hk]; nofun) hl with rfl | hlt
    · rw [hk] at hv
      cases hv
      exact List.mem_cons_self
    · refine List.mem_cons_of_mem _ (ih (editMap_kept _ _ hk (hb _ _).1 (hb _ _).2) ?_)
      rintro l ⟨⟩
      exact hlt

end VPdf
