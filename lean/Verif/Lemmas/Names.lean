import Verif.Spec.Names

/-! # Lemmas on names -/
namespace VPdf
open Spec

variable {α : Type}

/-- The model and the specification agree, and sharing is confined to the tied names. -/
structure Agree (h : NameHeap α) (s : ValueState α) (tied : List Nat) : Prop where
  count : h.names.length = s.names.length
  values : ∀ n, n < h.names.length → h.value n = s.names.getD n []
  bufs : ∀ (n : Nat) (c : NameCell), h.names[n]? = some c → c.buf < h.bufs.length
  apart : ∀ (n m : Nat) (c e : NameCell), h.names[n]? = some c → h.names[m]? = some e → c.buf = e.buf → n = m ∨ n ∈ tied ∧ m ∈ tied
  below : ∀ n ∈ tied, n < h.names.length
  dcount : h.dicts.length = s.dicts.length
  keys : ∀ d, ∀ e ∈ h.dicts.getD d [], e.1 ∈ tied
  lookups : ∀ d k, h.lookup d k = s.lookup d k

theorem getD_modify {β : Type} (l : List β) (d d' : Nat) (f : β → β) (x : β) :
    (l.modify d f).getD d' x = if d = d' ∧ d < l.length then f (l.getD d' x) else l.getD d' x := by
  rw [List.getD_eq_getElem?_getD, List.getD_eq_getElem?_getD, List.getElem?_modify]
  by_cases h : d = d'
  · subst h
    by_cases hl : d < l.length
    · simp [hl]
    · have : l[d]? = none := List.getElem?_eq_none (by omega)
      simp [hl]
  · simp [h]

theorem find_congr {l : List (Nat × α)} {p q : Nat × α → Bool} (h : ∀ e ∈ l, p e = q e) : l.find? p = l.find? q := by
  induction l with
  | nil => rfl
  | cons a l ih =>
    rw [List.find?_cons, List.find?_cons, h a List.mem_cons_self, ih fun e he => h e (List.mem_cons_of_mem _ he)]

theorem lookup_congr {h h' : NameHeap α} {d : Nat} (hd : h'.dicts.getD d [] = h.dicts.getD d [])
    (hv : ∀ e ∈ h.dicts.getD d [], h'.value e.1 = h.value e.1) (k : Bytes) : h'.lookup d k = h.lookup d k := by
  unfold NameHeap.lookup
  rw [hd, find_congr fun e he => by rw [hv e he]]

/-- Changes of flags only. -/
theorem Agree.same {h h' : NameHeap α} {s : ValueState α} {tied : List Nat} (a : Agree h s tied) (hb : h'.bufs = h.bufs)
    (hd : h'.dicts = h.dicts) (hn : ∀ n : Nat, (h'.names[n]?).map NameCell.buf = (h.names[n]?).map NameCell.buf) : Agree h' s tied := by
  have hv : ∀ n, h'.value n = h.value n := by
    intro n
    have := hn n
    unfold NameHeap.value
    cases h1 : h'.names[n]? <;> cases h2 : h.names[n]? <;> rw [h1, h2] at this <;> simp at this
    · dsimp only; rw [hb, this]
  have hl : h'.names.length = h.names.length := by
    have key : ∀ n, n < h'.names.length ↔ n < h.names.length := by
      intro n
      have := hn n
      by_cases h1 : n < h'.names.length <;> by_cases h2 : n < h.names.length
      · simp [h1, h2]
      · rw [List.getElem?_eq_getElem h1, List.getElem?_eq_none (by omega)] at this; cases this
      · rw [List.getElem?_eq_getElem h2, List.getElem?_eq_none (by omega)] at this; cases this
      · simp [h1, h2]
    have k1 := key h.names.length
    have k2 := key h'.names.length
    omega
  have hget : ∀ {n : Nat} {c : NameCell}, h'.names[n]? = some c → ∃ e, h.names[n]? = some e ∧ e.buf = c.buf := by
    intro n c hc
    have := hn n
    rw [hc] at this
    cases h2 : h.names[n]? with
    | none => rw [h2] at this; cases this
    | some e => rw [h2] at this; exact ⟨e, rfl, by simpa using this.symm⟩
  refine ⟨hl.trans a.count, fun n h => (hv n).trans (a.values n (hl ▸ h)), ?_, ?_, fun n h => hl ▸ a.below n h, hd ▸ a.dcount, hd ▸ a.keys, ?_⟩
  · intro n c hc
    obtain ⟨e, he, h2⟩ := hget hc
    rw [hb, ← h2]
    exact a.bufs n e he
  · intro n m c e hc he hce
    obtain ⟨c', hc', h2⟩ := hget hc
    obtain ⟨e', he', h3⟩ := hget he
    exact a.apart n m c' e' hc' he' (by rw [h2, h3, hce])
  · intro d k
    rw [lookup_congr (by rw [hd]) (fun e _ => hv e.1)]
    exact a.lookups d k

theorem agree_destroy {h : NameHeap α} {s : ValueState α} {tied : List Nat} (a : Agree h s tied) (n : Nat) : Agree (h.destroy n) s tied := by
  unfold NameHeap.destroy
  split
  · exact a.same rfl rfl fun _ => rfl
  · exact a

theorem agree_mark {h : NameHeap α} {s : ValueState α} {tied : List Nat} (a : Agree h s tied) (n : Nat) : Agree (h.mark n) s tied := by
  refine a.same rfl rfl fun m => ?_
  show ((h.names.modify n _)[m]?).map NameCell.buf = _
  rw [List.getElem?_modify]
  cases h.names[m]? with
  | none => rfl
  | some c => by_cases e : n = m <;> simp [e]

theorem Agree.tied {h : NameHeap α} {s : ValueState α} {tied : List Nat} (a : Agree h s tied) {n : Nat} (hn : n < h.names.length) :
    Agree h s (tied ++ [n]) where
  count := a.count
  values := a.values
  bufs := a.bufs
  apart x y c e hc he h := (a.apart x y c e hc he h).imp id fun ⟨h1, h2⟩ => ⟨List.mem_append_left _ h1, List.mem_append_left _ h2⟩
  below m hm := by
    rcases List.mem_append.mp hm with hm | hm
    · exact a.below m hm
    · rw [List.mem_singleton.mp hm]; exact hn
  dcount := a.dcount
  keys d e he := List.mem_append_left _ (a.keys d e he)
  lookups := a.lookups

theorem getD_append_left {β : Type} (l r : List β) (x : β) {n : Nat} (h : n < l.length) : (l ++ r).getD n x = l.getD n x := by
  rw [List.getD_eq_getElem?_getD, List.getD_eq_getElem?_getD, List.getElem?_append_left h]

theorem getD_append_right {β : Type} (l : List β) (a x : β) : (l ++ [a]).getD l.length x = a := by
  rw [List.getD_eq_getElem?_getD, List.getElem?_append_right (Nat.le_refl _)]
  simp

theorem get_append_one {β : Type} {l : List β} {a b : β} {n : Nat} (h : (l ++ [a])[n]? = some b) : l[n]? = some b ∨ n = l.length ∧ b = a := by
  by_cases hn : n < l.length
  · rw [List.getElem?_append_left hn] at h; exact .inl h
  · rw [List.getElem?_append_right (by omega)] at h
    right
    have : n - l.length = 0 := by
      by_cases h0 : n - l.length = 0
      · exact h0
      · obtain ⟨m, hm⟩ := Nat.exists_eq_succ_of_ne_zero h0
        rw [hm] at h
        simp at h
    rw [this] at h
    exact ⟨by omega, by simpa using h.symm⟩

theorem agree_create {h : NameHeap α} {s : ValueState α} {tied : List Nat} (a : Agree h s tied) (v : Bytes) :
    Agree (h.create v) { s with names := s.names ++ [v] } tied := by
  have hold : ∀ n, n < h.names.length → (h.create v).value n = h.value n := by
    intro n hn
    unfold NameHeap.value NameHeap.create
    dsimp only
    rw [List.getElem?_append_left hn, List.getElem?_eq_getElem hn]
    dsimp only
    exact getD_append_left _ _ _ (a.bufs n _ (List.getElem?_eq_getElem hn))
  refine ⟨?_, ?_, ?_, ?_, ?_, a.dcount, a.keys, ?_⟩
  · show (h.names ++ _).length = (s.names ++ [v]).length
    rw [List.length_append, List.length_append, a.count]
    rfl
  · intro n hn
    rw [show (h.create v).names.length = h.names.length + 1 by simp [NameHeap.create]] at hn
    by_cases h1 : n < h.names.length
    · rw [hold n h1, a.values n h1]
      exact (getD_append_left _ _ _ (a.count ▸ h1)).symm
    · have : n = h.names.length := by omega
      subst this
      rw [show ((s.names ++ [v]).getD h.names.length [] : Bytes) = v by rw [a.count]; exact getD_append_right _ _ _]
      unfold NameHeap.value NameHeap.create
      dsimp only
      rw [List.getElem?_append_right (Nat.le_refl _), Nat.sub_self]
      exact getD_append_right _ _ _
  · intro n c hc
    show c.buf < (h.bufs ++ [v]).length
    rw [List.length_append]
    rcases get_append_one hc with hc | ⟨_, rfl⟩
    · have := a.bufs n c hc
      simp; omega
    · simp
  · intro n m c e hc he hce
    rcases get_append_one hc with hc | ⟨h1, rfl⟩ <;> rcases get_append_one he with he | ⟨h2, rfl⟩
    · exact a.apart n m c e hc he hce
    · have := a.bufs n c hc
      dsimp only at hce
      omega
    · have := a.bufs m e he
      dsimp only at hce
      omega
    · exact .inl (h1.trans h2.symm)
  · intro n hn
    have := a.below n hn
    show n < (h.names ++ _).length
    rw [List.length_append]
    exact Nat.lt_add_right _ this
  · intro d k
    rw [lookup_congr (h' := h.create v) (h := h) rfl (fun e he => hold e.1 (a.below e.1 (a.keys d e he)))]
    exact a.lookups d k

theorem agree_assign {h : NameHeap α} {s : ValueState α} {tied : List Nat} (a : Agree h s tied) {n : Nat} (hn : n < h.names.length)
    (ht : n ∉ tied) (v : Bytes) : Agree (h.assign n v) { s with names := s.names.set n v } tied := by
  have hc := List.getElem?_eq_getElem hn
  have e : h.assign n v = { h with
      bufs := h.bufs.set h.names[n].buf v
      names := h.names.map fun m => if m.buf = h.names[n].buf ∧ m.subscribed ∧ h.active.getD m.counter false then { m with dirty := true } else m } := by
    unfold NameHeap.assign
    rw [hc]
  have hnames : ∀ m : Nat, ((h.assign n v).names[m]?).map NameCell.buf = (h.names[m]?).map NameCell.buf := by
    intro m
    rw [e]
    dsimp only
    rw [List.getElem?_map, Option.map_map]
    congr 1
    funext c
    dsimp only [Function.comp]
    split <;> rfl
  have hlen : (h.assign n v).names.length = h.names.length := by rw [e]; simp
  have hget : ∀ {m : Nat} {c : NameCell}, (h.assign n v).names[m]? = some c → ∃ x, h.names[m]? = some x ∧ x.buf = c.buf := by
    intro m c hc
    have := hnames m
    rw [hc] at this
    cases h2 : h.names[m]? with
    | none => rw [h2] at this; cases this
    | some x => rw [h2] at this; exact ⟨x, rfl, by simpa using this.symm⟩
  have hval : ∀ m, m < h.names.length → (h.assign n v).value m = if m = n then v else h.value m := by
    intro m hm
    have hm' := List.getElem?_eq_getElem (hlen ▸ hm : m < (h.assign n v).names.length)
    obtain ⟨x, hx, hxb⟩ := hget hm'
    unfold NameHeap.value
    rw [hm', hx]
    dsimp only
    rw [← hxb, show (h.assign n v).bufs = h.bufs.set h.names[n].buf v by rw [e]]
    rw [List.getD_eq_getElem?_getD, List.getD_eq_getElem?_getD, List.getElem?_set]
    by_cases hmn : m = n
    · subst hmn
      rw [hc] at hx
      cases hx
      rw [if_pos rfl, if_pos rfl, if_pos (a.bufs m _ hc)]
      rfl
    · rw [if_neg hmn, if_neg]
      intro hb
      rcases a.apart n m _ x hc hx hb with h1 | h1
      · exact hmn h1.symm
      · exact ht h1.1
  refine ⟨?_, ?_, ?_, ?_, ?_, ?_, ?_, ?_⟩
  · rw [hlen, a.count]; exact (List.length_set ..).symm
  · intro m hm
    rw [hlen] at hm
    rw [hval m hm]
    show _ = (s.names.set n v).getD m []
    rw [List.getD_eq_getElem?_getD, List.getElem?_set]
    by_cases hmn : m = n
    · subst hmn
      rw [if_pos rfl, if_pos rfl, if_pos (a.count ▸ hm)]
      rfl
    · rw [if_neg hmn, if_neg (Ne.symm hmn), a.values m hm, List.getD_eq_getElem?_getD]
  · intro m c hc
    obtain ⟨x, hx, hxb⟩ := hget hc
    rw [show (h.assign n v).bufs = h.bufs.set h.names[n].buf v by rw [e], List.length_set, ← hxb]
    exact a.bufs m x hx
  · intro x y c f hc hf hcf
    obtain ⟨c', h1, h2⟩ := hget hc
    obtain ⟨f', h3, h4⟩ := hget hf
    exact a.apart x y c' f' h1 h3 (by rw [h2, h4, hcf])
  · intro m hm; rw [hlen]; exact a.below m hm
  · rw [e]; exact a.dcount
  · rw [e]; exact a.keys
  · intro d k
    rw [lookup_congr (h := h) (by rw [e]) ?_]
    · exact a.lookups d k
    · intro x hx
      have hk := a.keys d x hx
      rw [hval x.1 (a.below _ hk), if_neg]
      rintro h1
      exact ht (h1 ▸ hk)

theorem agree_copy {h : NameHeap α} {s : ValueState α} {tied : List Nat} (a : Agree h s tied) {n : Nat} (hn : n < h.names.length) :
    Agree (h.copy n) { s with names := s.names ++ [s.names.getD n []] } (tied ++ [n, h.names.length]) := by
  have hc := List.getElem?_eq_getElem hn
  have e : h.copy n = { h with names := h.names ++ [⟨h.names[n].buf, h.names[n].counter, false, h.names[n].dirty⟩] } := by
    unfold NameHeap.copy
    rw [hc]
  have hold : ∀ m, m < h.names.length → (h.copy n).value m = h.value m := by
    intro m hm
    unfold NameHeap.value
    rw [e]
    dsimp only
    rw [List.getElem?_append_left hm]
  have hlen : (h.copy n).names.length = h.names.length + 1 := by rw [e]; simp
  rw [e] at hold hlen ⊢
  refine ⟨?_, ?_, ?_, ?_, ?_, a.dcount, fun d x hx => List.mem_append_left _ (a.keys d x hx), ?_⟩
  · rw [hlen, a.count]; simp
  · intro m hm
    by_cases h1 : m < h.names.length
    · rw [hold m h1, a.values m h1]
      exact (getD_append_left _ _ _ (a.count ▸ h1)).symm
    · have : m = h.names.length := by omega
      subst this
      rw [show ((s.names ++ [s.names.getD n []]).getD h.names.length [] : Bytes) = s.names.getD n [] by rw [a.count]; exact getD_append_right _ _ _,
        ← a.values n hn]
      unfold NameHeap.value
      dsimp only
      rw [List.getElem?_append_right (Nat.le_refl _), Nat.sub_self, hc]
      rfl
  · intro m c hm
    rcases get_append_one hm with hm | ⟨_, rfl⟩
    · exact a.bufs m c hm
    · exact a.bufs n h.names[n] hc
  · intro x y c f hx hy hcf
    have hm1 : n ∈ tied ++ [n, h.names.length] := by simp
    have hm2 : h.names.length ∈ tied ++ [n, h.names.length] := by simp
    rcases get_append_one hx with hx | ⟨rfl, rfl⟩ <;> rcases get_append_one hy with hy | ⟨rfl, rfl⟩
    · exact (a.apart x y c f hx hy hcf).imp id fun ⟨h1, h2⟩ => ⟨List.mem_append_left _ h1, List.mem_append_left _ h2⟩
    · rcases a.apart x n c _ hx hc hcf with rfl | ⟨h1, _⟩
      · exact .inr ⟨hm1, hm2⟩
      · exact .inr ⟨List.mem_append_left _ h1, hm2⟩
    · rcases a.apart n y _ f hc hy hcf with rfl | ⟨_, h1⟩
      · exact .inr ⟨hm2, hm1⟩
      · exact .inr ⟨hm2, List.mem_append_left _ h1⟩
    · exact .inl rfl
  · intro m hm
    rw [hlen]
    rcases List.mem_append.mp hm with hm | hm
    · have := a.below m hm; omega
    · simp at hm; rcases hm with rfl | rfl <;> omega
  · intro d k
    exact (lookup_congr (h' := ⟨h.bufs, h.active, h.names ++ [⟨h.names[n].buf, h.names[n].counter, false, h.names[n].dirty⟩], h.dicts⟩) (h := h) (d := d) rfl (fun x hx => hold x.1 (a.below x.1 (a.keys d x hx))) k).trans (a.lookups d k)

/-- A new entry whose key is the tied name `m`. -/
theorem agree_enter {h : NameHeap α} {s : ValueState α} {tied : List Nat} (a : Agree h s tied) {m d : Nat} {k : Bytes} {v : α}
    (hm : m ∈ tied) (hk : h.value m = k) (hn : h.lookup d k = none) :
    Agree { h with dicts := h.dicts.modify d fun l => l ++ [(m, v)] }
      { s with dicts := s.dicts.modify d fun f q => if q = k then some v else f q } tied := by
  refine ⟨a.count, a.values, a.bufs, a.apart, a.below, ?_, ?_, ?_⟩
  · show (h.dicts.modify _ _).length = (s.dicts.modify _ _).length
    rw [List.length_modify, List.length_modify, a.dcount]
  · intro d' x hx
    have hx : x ∈ (h.dicts.modify d fun l => l ++ [(m, v)]).getD d' [] := hx
    rw [getD_modify] at hx
    split at hx
    · rcases List.mem_append.mp hx with hx | hx
      · exact a.keys d' x hx
      · rw [List.mem_singleton.mp hx]; exact hm
    · exact a.keys d' x hx
  · intro d' q
    have h0 := a.lookups d' q
    unfold ValueState.lookup at h0 ⊢
    unfold NameHeap.lookup at h0 hn ⊢
    dsimp only
    rw [getD_modify, getD_modify, ← a.dcount]
    show Option.map _ (List.find? (fun e : Nat × α => h.value e.1 == q) _) = _
    by_cases hd : d = d' ∧ d < h.dicts.length
    · rw [if_pos hd, if_pos hd]
      obtain ⟨rfl, _⟩ := hd
      rw [List.find?_append]
      by_cases hq : q = k
      · subst hq
        rw [if_pos rfl]
        cases hf : (h.dicts.getD d []).find? (fun e => h.value e.1 == q) with
        | some x => rw [hf] at hn; cases hn
        | none =>
          have : ([(m, v)] : List (Nat × α)).find? (fun e => h.value e.1 == q) = some (m, v) := by
            rw [List.find?_cons_of_pos]
            simpa using hk
          rw [this]
          rfl
      · rw [if_neg hq, ← h0]
        have : ([(m, v)] : List (Nat × α)).find? (fun e => h.value e.1 == q) = none := by
          rw [List.find?_cons_of_neg]
          · rfl
          · simpa [hk] using Ne.symm hq
        rw [this]
        simp
    · rw [if_neg hd, if_neg hd]
      exact h0

theorem agree_remove {h : NameHeap α} {s : ValueState α} {tied : List Nat} (a : Agree h s tied) {d : Nat} {k : Bytes} :
    Agree { h with dicts := h.dicts.modify d fun l => l.filter fun e => h.value e.1 != k }
      { s with dicts := s.dicts.modify d fun f q => if q = k then none else f q } tied := by
  refine ⟨a.count, a.values, a.bufs, a.apart, a.below, ?_, ?_, ?_⟩
  · show (h.dicts.modify _ _).length = (s.dicts.modify _ _).length
    rw [List.length_modify, List.length_modify, a.dcount]
  · intro d' x hx
    have hx : x ∈ (h.dicts.modify d fun l => l.filter fun e => h.value e.1 != k).getD d' [] := hx
    rw [getD_modify] at hx
    split at hx
    · exact a.keys d' x (List.mem_filter.mp hx).1
    · exact a.keys d' x hx
  · intro d' q
    have h0 := a.lookups d' q
    unfold ValueState.lookup at h0 ⊢
    unfold NameHeap.lookup at h0 ⊢
    dsimp only
    rw [getD_modify, getD_modify, ← a.dcount]
    show Option.map _ (List.find? (fun e : Nat × α => h.value e.1 == q) _) = _
    by_cases hd : d = d' ∧ d < h.dicts.length
    · rw [if_pos hd, if_pos hd]
      rw [List.find?_filter]
      by_cases hq : q = k
      · subst hq
        rw [if_pos rfl, Option.map_eq_none_iff, List.find?_eq_none]
        intro x _
        simp
      · rw [if_neg hq, ← h0, find_congr]
        intro x _
        by_cases hx : h.value x.1 = q
        · simp [hx, hq]
        · simp [hx]
    · rw [if_neg hd, if_neg hd]
      exact h0

theorem lookup_isSome {h : NameHeap α} {s : ValueState α} {tied : List Nat} (a : Agree h s tied) {d n : Nat} (hn : n < h.names.length) :
    s.lookup d (s.names.getD n []) = h.lookup d (h.value n) := by rw [a.values n hn]; exact (a.lookups d _).symm

theorem names_run : ∀ (ops : List (NameOp α)) (h : NameHeap α) (s : ValueState α) (tied : List Nat), Agree h s tied →
    Careful h.names.length tied ops → (h.run ops).1 = (s.run ops).1 ∧ ∃ tied', Agree (h.run ops).2 (s.run ops).2 tied'
  | [], h, s, tied, a, _ => ⟨rfl, tied, a⟩
  | op :: ops, h, s, tied, a, hc => by
    obtain ⟨h1, h2⟩ := hc
    have key : (h.step op).1 = (s.step op).1 ∧ Agree (h.step op).2 (s.step op).2 (tied ++ tiedBy h.names.length op) ∧
        (h.step op).2.names.length = h.names.length + madeBy op := by
      cases op with
      | create v =>
        refine ⟨rfl, ?_, by simp [NameHeap.step, NameHeap.create, madeBy]⟩
        show Agree _ _ (tied ++ [])
        rw [List.append_nil]
        exact agree_create a v
      | set n v =>
        have := agree_mark (agree_assign a h1.1 h1.2 v) n
        refine ⟨rfl, ?_, ?_⟩
        · show Agree _ _ (tied ++ [])
          rw [List.append_nil]
          exact this
        · have := this.count
          rw [show ({ s with names := s.names.set n v } : ValueState α).names.length = s.names.length from List.length_set .., ← a.count] at this
          exact this
      | setBuffer n v =>
        have := agree_assign a h1.1 h1.2 v
        refine ⟨rfl, ?_, ?_⟩
        · show Agree _ _ (tied ++ [])
          rw [List.append_nil]
          exact this
        · have := this.count
          rw [show ({ s with names := s.names.set n v } : ValueState α).names.length = s.names.length from List.length_set .., ← a.count] at this
          exact this
      | insert d n v =>
        have hl := lookup_isSome a (d := d) h1
        have at' := a.tied h1
        unfold NameHeap.step ValueState.step
        dsimp only
        rw [hl]
        cases hf : h.lookup d (h.value n) with
        | some x => exact ⟨rfl, at', rfl⟩
        | none =>
          refine ⟨rfl, ?_, rfl⟩
          have := agree_enter (v := v) at' (m := n) (by simp) rfl hf
          rw [a.values n h1] at this
          exact this
      | insertConst d n v =>
        have hl := lookup_isSome a (d := d) h1
        have ac := agree_copy a h1
        have hlen : (h.copy n).names.length = h.names.length + 1 := by
          rw [ac.count, a.count]; simp
        unfold NameHeap.step ValueState.step
        dsimp only
        rw [hl]
        cases hf : h.lookup d (h.value n) with
        | some x =>
          refine ⟨rfl, agree_destroy ac _, ?_⟩
          rw [(agree_destroy ac h.names.length).count, ← ac.count]
          exact hlen
        | none =>
          refine ⟨rfl, ?_, hlen⟩
          have hv : (h.copy n).value h.names.length = h.value n := by
            rw [ac.values _ (by omega), a.values n h1, a.count]
            exact getD_append_right _ _ _
          have hf' : (h.copy n).lookup d (h.value n) = none := by
            rw [ac.lookups]
            show s.lookup d _ = none
            rw [← a.lookups]
            exact hf
          have := agree_enter (v := v) ac (m := h.names.length) (by simp) hv hf'
          rw [a.values n h1] at this
          have hd : (h.copy n).dicts = h.dicts := by
            unfold NameHeap.copy
            split <;> rfl
          rw [hd] at this
          exact this
      | find d n =>
        have hl := lookup_isSome a (d := d) h1
        have ad := agree_destroy a n
        have hlen : (h.destroy n).names.length = h.names.length := by rw [ad.count, a.count]
        unfold NameHeap.step ValueState.step
        dsimp only
        rw [hl]
        show _ ∧ Agree _ _ (tied ++ []) ∧ _
        rw [List.append_nil]
        cases hf : h.lookup d (h.value n) with
        | some x => exact ⟨rfl, ad, hlen⟩
        | none => exact ⟨rfl, ad, hlen⟩
      | remove d n =>
        have ad := agree_destroy a n
        have hlen : (h.destroy n).names.length = h.names.length := by rw [ad.count, a.count]
        have hd : (h.destroy n).dicts = h.dicts := by
          unfold NameHeap.destroy
          split <;> rfl
        have hv : ∀ m, (h.destroy n).value m = h.value m := by
          intro m
          unfold NameHeap.destroy
          split <;> rfl
        refine ⟨rfl, ?_, hlen⟩
        show Agree _ _ (tied ++ [])
        rw [List.append_nil]
        have := agree_remove ad (d := d) (k := h.value n)
        rw [a.values n h1, hd] at this
        simp only [hv] at this
        show Agree { h.destroy n with dicts := h.dicts.modify d fun l => l.filter fun e => h.value e.1 != h.value n } _ tied
        rw [a.values n h1]
        exact this
    obtain ⟨k1, k2, k3⟩ := key
    have ih := names_run ops (h.step op).2 (s.step op).2 _ k2 (by rw [k3]; exact h2)
    refine ⟨?_, ih.2⟩
    show (h.step op).1 :: _ = (s.step op).1 :: _
    rw [k1]
    exact congrArg _ ih.1

theorem run_append_names (h : NameHeap α) (a b : List (NameOp α)) : (h.run (a ++ b)).2 = ((h.run a).2.run b).2 := by
  induction a generalizing h with
  | nil => rfl
  | cons op a ih => exact ih (h.step op).2

theorem run_cons_names (h : NameHeap α) (op : NameOp α) (ops : List (NameOp α)) : (h.run (op :: ops)).2 = ((h.step op).2.run ops).2 := rfl

/-- Every counter exists. -/
def CountersExist (h : NameHeap α) : Prop := ∀ (m : Nat) (e : NameCell), h.names[m]? = some e → e.counter < h.active.length

/-- The name `n` is told of changes of its buffer, and no other name has its counter. -/
def Told (h : NameHeap α) (n : Nat) : Prop :=
  ∃ c, h.names[n]? = some c ∧ c.subscribed = true ∧ h.active.getD c.counter false = true ∧
    ∀ (m : Nat) (e : NameCell), h.names[m]? = some e → e.counter = c.counter → m = n

/-- What a change of flags keeps. -/
theorem kept_flags {h h' : NameHeap α} (ha : h'.active = h.active)
    (hn : ∀ m : Nat, (h'.names[m]?).map (fun c => (c.counter, c.subscribed)) = (h.names[m]?).map fun c => (c.counter, c.subscribed)) :
    (CountersExist h → CountersExist h') ∧ ∀ n, Told h n → Told h' n := by
  have hget : ∀ {m : Nat} {c : NameCell}, h'.names[m]? = some c → ∃ x, h.names[m]? = some x ∧ x.counter = c.counter := by
    intro m c hc
    have := hn m
    rw [hc] at this
    cases h2 : h.names[m]? with
    | none => rw [h2] at this; cases this
    | some x => rw [h2] at this; simp at this; exact ⟨x, rfl, this.1.symm⟩
  constructor
  · intro k m e he
    obtain ⟨x, hx, h1⟩ := hget he
    rw [ha, ← h1]
    exact k m x hx
  · rintro n ⟨c, h1, h2, h3, h4⟩
    have := hn n
    rw [h1] at this
    cases hc : h'.names[n]? with
    | none => rw [hc] at this; cases this
    | some c' =>
      rw [hc] at this
      simp at this
      refine ⟨c', hc, this.2.trans h2, by rw [ha, this.1]; exact h3, ?_⟩
      intro m e he hce
      obtain ⟨x, hx, h5⟩ := hget he
      exact h4 m x hx (by rw [h5, hce, this.1])

theorem kept_assign (h : NameHeap α) (n : Nat) (v : Bytes) :
    (CountersExist h → CountersExist (h.assign n v)) ∧ ∀ m, Told h m → Told (h.assign n v) m := by
  unfold NameHeap.assign
  split
  · refine kept_flags rfl fun m => ?_
    dsimp only
    rw [List.getElem?_map, Option.map_map]
    congr 1
    funext c
    dsimp only [Function.comp]
    split <;> rfl
  · exact ⟨id, fun _ => id⟩

theorem kept_mark (h : NameHeap α) (n : Nat) : (CountersExist h → CountersExist (h.mark n)) ∧ ∀ m, Told h m → Told (h.mark n) m := by
  refine kept_flags rfl fun m => ?_
  show ((h.names.modify n _)[m]?).map _ = _
  rw [List.getElem?_modify]
  cases h.names[m]? with
  | none => rfl
  | some c => by_cases e : n = m <;> simp [e]

theorem counted_destroy {h : NameHeap α} (k : CountersExist h) (n : Nat) : CountersExist (h.destroy n) := by
  unfold NameHeap.destroy
  split
  · intro m e he
    show _ < (h.active.set _ _).length
    rw [List.length_set]
    exact k m e he
  · exact k

theorem told_destroy {h : NameHeap α} {n m : Nat} (t : Told h n) (hm : m ≠ n) : Told (h.destroy m) n := by
  unfold NameHeap.destroy
  split
  · rename_i e he
    obtain ⟨c, h1, h2, h3, h4⟩ := t
    refine ⟨c, h1, h2, ?_, h4⟩
    show (h.active.set _ _).getD _ _ = true
    rw [List.getD_eq_getElem?_getD, List.getElem?_set, if_neg fun hce => hm (h4 m e he hce), ← List.getD_eq_getElem?_getD]
    exact h3
  · exact t

theorem counted_create {h : NameHeap α} (k : CountersExist h) (v : Bytes) : CountersExist (h.create v) := by
  intro m e he
  show _ < (h.active ++ [true]).length
  rw [List.length_append]
  rcases get_append_one he with he | ⟨_, rfl⟩
  · exact Nat.lt_add_right _ (k m e he)
  · simp

theorem told_lt {h : NameHeap α} {n : Nat} (t : Told h n) : n < h.names.length := by
  obtain ⟨c, h1, _⟩ := t
  exact (List.getElem?_eq_some_iff.mp h1).1

theorem told_create_old {h : NameHeap α} (k : CountersExist h) {n : Nat} (t : Told h n) (v : Bytes) : Told (h.create v) n := by
  have hl := told_lt t
  obtain ⟨c, h1, h2, h3, h4⟩ := t
  have hc := k n c h1
  refine ⟨c, ?_, h2, ?_, ?_⟩
  · show (h.names ++ _)[n]? = _
    rw [List.getElem?_append_left hl]; exact h1
  · show (h.active ++ _).getD _ _ = _
    rw [getD_append_left _ _ _ hc]; exact h3
  · intro m e he hce
    rcases get_append_one he with he | ⟨_, rfl⟩
    · exact h4 m e he hce
    · dsimp only at hce; omega

theorem told_create {h : NameHeap α} (k : CountersExist h) (v : Bytes) : Told (h.create v) h.names.length := by
  refine ⟨⟨h.bufs.length, h.active.length, true, false⟩, ?_, rfl, ?_, ?_⟩
  · show (h.names ++ _)[_]? = _
    rw [List.getElem?_append_right (Nat.le_refl _), Nat.sub_self]; rfl
  · show (h.active ++ _).getD _ _ = _
    exact getD_append_right _ _ _
  · intro m e he hce
    rcases get_append_one he with he | ⟨h1, _⟩
    · have := k m e he
      dsimp only at hce; omega
    · exact h1

theorem kept_copy {h : NameHeap α} {n m : Nat} (hm : m < h.names.length) :
    (CountersExist h → CountersExist (h.copy m)) ∧ (m ≠ n → Told h n → Told (h.copy m) n) := by
  have hc := List.getElem?_eq_getElem hm
  have e : h.copy m = { h with names := h.names ++ [⟨h.names[m].buf, h.names[m].counter, false, h.names[m].dirty⟩] } := by
    unfold NameHeap.copy
    rw [hc]
  rw [e]
  constructor
  · intro k x y hy
    rcases get_append_one hy with hy | ⟨_, rfl⟩
    · exact k x y hy
    · exact k m h.names[m] hc
  · intro hmn t
    have hl := told_lt t
    obtain ⟨c, h1, h2, h3, h4⟩ := t
    refine ⟨c, ?_, h2, h3, ?_⟩
    · show (h.names ++ _)[n]? = _
      rw [List.getElem?_append_left hl]; exact h1
    · intro x y hy hyc
      rcases get_append_one hy with hy | ⟨_, rfl⟩
      · exact h4 x y hy hyc
      · exact absurd (h4 m h.names[m] hc hyc) hmn

/-- The destruction of a copy, where the copy is the last name. -/
theorem told_destroy_copy {h : NameHeap α} {n m : Nat} (hm : m < h.names.length) (hmn : m ≠ n) (t : Told h n) :
    Told ((h.copy m).destroy h.names.length) n :=
  told_destroy ((kept_copy hm).2 hmn t) (Nat.ne_of_gt (told_lt t))

/-- The argument of an insertion by reference exists. -/
def ConstOk (count : Nat) : NameOp α → Prop
  | .insertConst _ m _ => m < count
  | _ => True

/-- One call keeps both, if it makes no copy of the name. -/
theorem told_step {h : NameHeap α} {op : NameOp α} {n : Nat} (k : CountersExist h)
    (ok : ConstOk h.names.length op) :
    CountersExist (h.step op).2 ∧ (copies n op = false → Told h n → Told (h.step op).2 n) := by
  cases op with
  | create v => exact ⟨counted_create k v, fun _ t => told_create_old k t v⟩
  | set m v => exact ⟨(kept_mark _ m).1 ((kept_assign h m v).1 k), fun _ t => (kept_mark _ m).2 n ((kept_assign h m v).2 n t)⟩
  | setBuffer m v => exact ⟨(kept_assign h m v).1 k, fun _ t => (kept_assign h m v).2 n t⟩
  | insert d m v =>
    unfold NameHeap.step
    dsimp only
    split
    · exact ⟨k, fun _ t => t⟩
    · exact ⟨k, fun _ t => t⟩
  | insertConst d m v =>
    unfold NameHeap.step
    dsimp only
    have hm : copies n (NameOp.insertConst d m v) = false → m ≠ n := by simp [copies]
    split
    · exact ⟨counted_destroy ((kept_copy (n := n) ok).1 k) _, fun hc t => told_destroy_copy ok (hm hc) t⟩
    · exact ⟨(kept_copy (n := n) ok).1 k, fun hc t => (kept_copy ok).2 (hm hc) t⟩
  | find d m =>
    have hm : copies n (NameOp.find (α := α) d m) = false → m ≠ n := by simp [copies]
    unfold NameHeap.step
    dsimp only
    split
    · exact ⟨counted_destroy k m, fun hc t => told_destroy t (hm hc)⟩
    · exact ⟨counted_destroy k m, fun hc t => told_destroy t (hm hc)⟩
  | remove d m =>
    have hm : copies n (NameOp.remove (α := α) d m) = false → m ≠ n := by simp [copies]
    exact ⟨counted_destroy k m, fun hc t => told_destroy t (hm hc)⟩

theorem step_count {h : NameHeap α} {op : NameOp α}
    (ok : ConstOk h.names.length op) :
    (h.step op).2.names.length = h.names.length + madeBy op := by
  have h1 : ∀ n v, (h.assign n v).names.length = h.names.length := by
    intro n v; unfold NameHeap.assign; split <;> simp
  have h2 : ∀ (h : NameHeap α) n, (h.destroy n).names.length = h.names.length := by
    intro h n; unfold NameHeap.destroy; split <;> rfl
  have h3 : ∀ n, (h.copy n).names.length = h.names.length + 1 := by
    intro n; unfold NameHeap.copy; split <;> simp
  cases op with
  | create v => simp [NameHeap.step, NameHeap.create, madeBy]
  | set m v => simp [NameHeap.step, NameHeap.mark, h1, madeBy]
  | setBuffer m v => simp [NameHeap.step, h1, madeBy]
  | insert d m v => unfold NameHeap.step; dsimp only; split <;> rfl
  | insertConst d m v => unfold NameHeap.step; dsimp only; split <;> simp [h2, h3, madeBy]
  | find d m => unfold NameHeap.step; dsimp only; split <;> simp [h2, madeBy]
  | remove d m => simp [NameHeap.step, h2, madeBy]

theorem careful_const {count : Nat} {tied : List Nat} {op : NameOp α} {ops : List (NameOp α)} (h : Careful count tied (op :: ops)) :
    ConstOk count op := by
  have := h.1
  cases op <;> first | exact this | trivial

theorem counted_run : ∀ (ops : List (NameOp α)) (h : NameHeap α) (tied : List Nat), CountersExist h → Careful h.names.length tied ops →
    CountersExist (h.run ops).2
  | [], _, _, k, _ => k
  | op :: ops, h, tied, k, hc => by
    have ok := careful_const hc
    have h2 := hc.2
    rw [← step_count ok] at h2
    exact counted_run ops (h.step op).2 _ (told_step (n := 0) k ok).1 h2

theorem told_run : ∀ (ops : List (NameOp α)) (h : NameHeap α) (tied : List Nat) (n : Nat), CountersExist h → Careful h.names.length tied ops →
    (∀ op ∈ ops, copies n op = false) → Told h n → Told (h.run ops).2 n
  | [], _, _, _, _, _, _, t => t
  | op :: ops, h, tied, n, k, hc, hn, t => by
    have ok := careful_const hc
    have h2 := hc.2
    rw [← step_count ok] at h2
    exact told_run ops (h.step op).2 _ n (told_step (n := n) k ok).1 h2
      (fun o ho => hn o (List.mem_cons_of_mem _ ho)) ((told_step (n := n) k ok).2 (hn op List.mem_cons_self) t)

theorem careful_append : ∀ (a b : List (NameOp α)) (h : NameHeap α) (tied : List Nat), Careful h.names.length tied (a ++ b) →
    Careful h.names.length tied a ∧ ∃ tied', Careful (h.run a).2.names.length tied' b
  | [], _, _, tied, hc => ⟨trivial, tied, hc⟩
  | op :: a, b, h, tied, hc => by
    have ok := careful_const hc
    have h2 := hc.2
    rw [← step_count ok] at h2
    have := careful_append a b (h.step op).2 _ h2
    rw [step_count ok] at this
    exact ⟨⟨hc.1, this.1⟩, this.2⟩

/-- A name that is told is marked when its buffer changes. -/
theorem told_marked {h : NameHeap α} {n : Nat} (t : Told h n) (v : Bytes) :
    ((h.step (.setBuffer n v)).2.names[n]?).map NameCell.dirty = some true := by
  obtain ⟨c, h1, h2, h3, _⟩ := t
  show ((h.assign n v).names[n]?).map _ = _
  unfold NameHeap.assign
  rw [h1]
  dsimp only
  rw [List.getElem?_map, h1]
  simp [h2]
  rw [List.getD_eq_getElem?_getD] at h3
  simp [h3]

end VPdf
