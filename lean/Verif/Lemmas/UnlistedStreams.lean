import Verif.Spec.UnlistedStreams
import Verif.Lemmas.XrefTable
/-
  Helper lemmas for C121.
-/
namespace VPdf
open Spec

/-! ### Entries -/

theorem liveFind_add (n : Nat) (l : List LiveEntry) (e : LiveEntry) :
    liveFind n (liveAdd l e) = if e.entry.num = n then some e else liveFind n l := by
  unfold liveFind liveAdd
  rw [List.find?_append]
  by_cases h : e.entry.num = n
  · subst h
    rw [if_pos rfl, List.find?_eq_none.mpr (by intro x hx; have := (List.mem_filter.mp hx).2; simpa using this)]
    simp
  · rw [if_neg h]
    have : ([e].find? fun x => x.entry.num == n) = none := by simp [h]
    rw [this, Option.or_none]
    induction l with
    | nil => rfl
    | cons x l ih =>
      rw [List.filter_cons]
      by_cases hx : x.entry.num = e.entry.num
      · have hxn : (x.entry.num == n) = false := by rw [hx]; simpa using h
        rw [if_neg (by simp [hx]), ih, List.find?_cons, hxn]
      · rw [if_pos (by simp [hx]), List.find?_cons, List.find?_cons, ih]

theorem liveFind_rows (n : Nat) (f : XEntry → LiveEntry) (hf : ∀ e, (f e).entry = e) (rows : List XEntry) :
    ∀ l : List LiveEntry, liveFind n (rows.foldl (fun l e => liveAdd l (f e)) l) =
      ((lastEntry n rows).map f).or (liveFind n l) := by
  induction rows with
  | nil => intro l; simp [lastEntry]
  | cons e rows ih =>
    intro l
    rw [List.foldl_cons, ih, liveFind_add, hf, lastEntry_cons]
    cases hr : lastEntry n rows with
    | some x => simp
    | none => 
      by_cases h : e.num = n
      · simp [h]
      · simp [h, Ne.symm h]

theorem liveFind_bind (n m : Nat) (a : Int) (l : List LiveEntry) :
    liveFind n (liveBind m a l) = (liveFind n l).map fun e => if e.entry.num == m then { e with object := some a } else e := by
  induction l with
  | nil => rfl
  | cons x l ih =>
    have hn : (if (x.entry.num == m) = true then ({ x with object := some a } : LiveEntry) else x).entry.num = x.entry.num := by
      split <;> rfl
    unfold liveFind liveBind at *
    rw [List.map_cons, List.find?_cons, List.find?_cons, hn]
    cases x.entry.num == n
    · exact ih
    · rfl

theorem liveFind_num {n : Nat} {l : List LiveEntry} {e : LiveEntry} (h : liveFind n l = some e) : e.entry.num = n := by
  have := List.find?_some h; simpa using this

/-! ### Sections -/

/-- The section of the chain and the revision it came from.  `d` tells whether the hybrid stream has been read; `K` are the
objects that the chain knows. -/
structure MatchesRev (K : Nat → Nat → Prop) (s : LiveSection) (r : Rev) (d : Prop) : Prop where
  kind : s.kind = if r.text.own.isSome then .stream else .table
  origin : s.origin = some r.at_
  trailer : s.trailer = r.text.trailer
  stm : s.stm = r.text.stm
  ent : ∀ n, (liveFind n s.entries).map (·.entry) = lastEntry n r.text.rows
  hyb : d → ∀ n, (liveFind n s.hybrid).map (·.entry) = r.hybrid.bind fun q => lastEntry n q.2.rows
  nohyb : ¬ d → s.hybrid = []
  snd : ∀ n e a, liveFind n s.entries = some e → e.object = some a → e.entry.kind = .used a
  sndh : ∀ n e a, liveFind n s.hybrid = some e → e.object = some a → e.entry.kind = .used a
  cov : ∀ n g, Unlisted (r.at_, r.text) n g → K n g
  covh : d → ∀ q, r.hybrid = some q → ∀ n g, Unlisted q n g → K n g

/-- A virtual table for a stream that does not list itself. -/
def Virt (h : List Rev) (s : LiveSection) : Prop :=
  s.kind = .virtual ∧ s.hybrid = [] ∧ ∃ r q n g, r ∈ h ∧ q ∈ r.streams ∧ Unlisted q n g ∧
    s.entries = [⟨⟨n, g, .used (-1)⟩, some q.1⟩]

/-- The chain and the revisions its sections came from; the hybrid streams of the first `k` sections have been read. -/
inductive Lines (h : List Rev) (K : Nat → Nat → Prop) : Nat → List LiveSection → List Rev → Prop where
  | nil (k : Nat) : Lines h K k [] []
  | virt (k : Nat) (s : LiveSection) (c : List LiveSection) (p : List Rev) : Virt h s → Lines h K (k - 1) c p →
      Lines h K k (s :: c) p
  | real (k : Nat) (s : LiveSection) (r : Rev) (c : List LiveSection) (p : List Rev) : r ∈ h → MatchesRev K s r (0 < k) →
      Lines h K (k - 1) c p → Lines h K k (s :: c) (r :: p)

theorem MatchesRev.mono {K K' : Nat → Nat → Prop} {s : LiveSection} {r : Rev} {d : Prop} (m : MatchesRev K s r d)
    (hk : ∀ n g, K n g → K' n g) : MatchesRev K' s r d :=
  { m with cov := fun n g u => hk n g (m.cov n g u), covh := fun hd q hq n g u => hk n g (m.covh hd q hq n g u) }

theorem Lines.mono {h : List Rev} {K K' : Nat → Nat → Prop} {k : Nat} {c : List LiveSection} {p : List Rev}
    (l : Lines h K k c p) (hk : ∀ n g, K n g → K' n g) : Lines h K' k c p := by
  induction l with
  | nil k => exact .nil k
  | virt k s c p hv _ ih => exact .virt k s c p hv ih
  | real k s r c p hr m _ ih => exact .real k s r c p hr (m.mono hk) ih

theorem MatchesRev.get {K : Nat → Nat → Prop} {s : LiveSection} {r : Rev} {d : Prop} (m : MatchesRev K s r d) {n g : Nat}
    {e : LiveEntry} (h : s.get n g = some e) :
    r.lists n g = some e.entry.kind ∧ ∀ a, e.object = some a → e.entry.kind = .used a := by
  unfold LiveSection.get at h
  have ent := m.ent n
  cases he : liveFind n s.entries with
  | some x =>
    rw [he] at h ent
    simp only [Option.some_or] at h
    split at h
    · rename_i hg
      injection h with h; subst h
      refine ⟨?_, fun a ha => m.snd n x a he ha⟩
      simp [Rev.lists, Rev.entry, ← ent, hg]
    · cases h
  | none =>
    rw [he] at h ent
    simp only [Option.none_or] at h
    cases hh : liveFind n s.hybrid with
    | none => rw [hh] at h; cases h
    | some x =>
      rw [hh] at h
      dsimp only at h
      split at h
      · rename_i hg
        injection h with h; subst h
        refine ⟨?_, fun a ha => m.sndh n x a hh ha⟩
        have hd : d := by
          by_cases hd : d
          · exact hd
          · rw [m.nohyb hd] at hh; cases hh
        have hy := m.hyb hd n
        rw [hh] at hy
        simp [Rev.lists, Rev.entry, ← ent, ← hy, hg]
      · cases h

theorem MatchesRev.get_none {K : Nat → Nat → Prop} {s : LiveSection} {r : Rev} {d : Prop} (m : MatchesRev K s r d) (hd : d)
    {n g : Nat} (h : s.get n g = none) : r.lists n g = none := by
  unfold LiveSection.get at h
  have ent := m.ent n
  have hy := m.hyb hd n
  unfold Rev.lists Rev.entry
  rw [← ent, ← hy]
  cases he : liveFind n s.entries with
  | some x => rw [he] at h; simp at h; simp [h]
  | none =>
    rw [he] at h
    cases hh : liveFind n s.hybrid with
    | none => simp
    | some x => rw [hh] at h; simp at h; simp [h]

theorem virt_get {h : List Rev} {s : LiveSection} (v : Virt h s) {n g : Nat} {e : LiveEntry} (hg : s.get n g = some e) :
    ∃ r q, r ∈ h ∧ q ∈ r.streams ∧ Unlisted q n g ∧ s.entries = [⟨⟨n, g, .used (-1)⟩, some q.1⟩] ∧
      e = ⟨⟨n, g, .used (-1)⟩, some q.1⟩ := by
  obtain ⟨_, vh, r, q, a, b, hr, hq, hu, he⟩ := v
  unfold LiveSection.get at hg
  rw [he, vh] at hg
  by_cases ha : a = n
  · subst ha
    simp [liveFind] at hg
    obtain ⟨hb, rfl⟩ := hg
    subst hb
    exact ⟨r, q, hr, hq, hu, he, rfl⟩
  · simp [liveFind, ha] at hg

/-! ### Setting the object of an entry -/

theorem setObject_get (s : LiveSection) (n : Nat) (a : Int) (m g : Nat) :
    ((s.setObject n a).get m g).isSome = (s.get m g).isSome := by
  by_cases hs : (liveFind n s.entries).isSome
  · have e : s.setObject n a = { s with entries := liveBind n a s.entries } := by unfold LiveSection.setObject; rw [if_pos hs]
    rw [e]
    unfold LiveSection.get
    dsimp only
    rw [liveFind_bind]
    cases hm : liveFind m s.entries with
    | none => rfl
    | some x =>
      simp only [Option.map_some, Option.some_or]
      by_cases hx : (x.entry.num == n) = true
      · rw [if_pos hx]; split <;> rfl
      · rw [if_neg hx]
  · have e : s.setObject n a = { s with hybrid := liveBind n a s.hybrid } := by unfold LiveSection.setObject; rw [if_neg hs]
    rw [e]
    unfold LiveSection.get
    dsimp only
    rw [liveFind_bind]
    cases hm : liveFind m s.entries with
    | some x => rfl
    | none =>
      simp only [Option.none_or]
      cases hh : liveFind m s.hybrid with
      | none => rfl
      | some x =>
        simp only [Option.map_some]
        by_cases hx : (x.entry.num == n) = true
        · rw [if_pos hx]; split <;> rfl
        · rw [if_neg hx]

theorem setObject_matches {K : Nat → Nat → Prop} {s : LiveSection} {r : Rev} {d : Prop} (m : MatchesRev K s r d) {n g : Nat}
    {e : LiveEntry} {a : Int} (hg : s.get n g = some e) (hk : e.entry.kind = .used a) : MatchesRev K (s.setObject n a) r d := by
  unfold LiveSection.get at hg
  have bindEntry : ∀ (l : List LiveEntry) (i : Nat), (liveFind i (liveBind n a l)).map (·.entry) = (liveFind i l).map (·.entry) := by
    intro l i
    rw [liveFind_bind]
    cases liveFind i l with
    | none => rfl
    | some x => simp only [Option.map_some]; split <;> rfl
  have sound : ∀ (l : List LiveEntry), (∀ i x b, liveFind i l = some x → x.object = some b → x.entry.kind = .used b) →
      liveFind n l = some e → ∀ i x b, liveFind i (liveBind n a l) = some x → x.object = some b → x.entry.kind = .used b := by
    intro l hl hne i x b hx hb
    rw [liveFind_bind] at hx
    cases hi : liveFind i l with
    | none => rw [hi] at hx; cases hx
    | some y =>
      rw [hi, Option.map_some] at hx
      injection hx with hx
      split at hx
      · rename_i hyn
        have hyn : y.entry.num = n := by simpa using hyn
        have hin : i = n := by rw [← liveFind_num hi]; exact hyn
        subst hin
        rw [hne] at hi; injection hi with hi; subst hi
        subst hx
        injection hb with hb; subst hb
        exact hk
      · subst hx; exact hl i y b hi hb
  unfold LiveSection.setObject
  cases he : liveFind n s.entries with
  | some x =>
    rw [he] at hg
    simp only [Option.some_or] at hg
    split at hg
    · injection hg with hg; subst hg
      rw [if_pos (by simp)]
      exact ⟨m.kind, m.origin, m.trailer, m.stm, fun i => by rw [bindEntry]; exact m.ent i, m.hyb, m.nohyb,
        sound s.entries m.snd he, m.sndh, m.cov, m.covh⟩
    · cases hg
  | none =>
    rw [he] at hg
    simp only [Option.none_or] at hg
    cases hh : liveFind n s.hybrid with
    | none => rw [hh] at hg; cases hg
    | some x =>
      rw [hh] at hg
      dsimp only at hg
      split at hg
      · injection hg with hg; subst hg
        rw [if_neg (by simp)]
        exact ⟨m.kind, m.origin, m.trailer, m.stm, m.ent, fun hd i => by rw [bindEntry]; exact m.hyb hd i,
          fun hd => absurd hh (by rw [m.nohyb hd]; exact fun h => by cases h), m.snd, sound s.hybrid m.sndh hh, m.cov, m.covh⟩
      · cases hg

/-- What stays the same of every section. -/
def LiveSection.mark (s : LiveSection) : SectionKind × Option Int × Dict × Option Int × Option Int :=
  (s.kind, s.origin, s.trailer, s.prev, s.stm)

theorem setObject_mark (s : LiveSection) (n : Nat) (a : Int) : (s.setObject n a).mark = s.mark := by
  unfold LiveSection.setObject LiveSection.mark; split <;> rfl

theorem liveEntry_none {c : List LiveSection} {n g : Nat} : liveEntry c n g = none ↔ ∀ s ∈ c, s.get n g = none := by
  unfold liveEntry; rw [List.findSome?_eq_none_iff]

theorem setReference_mark {n g : Nat} {a : Int} {c c' : List LiveSection} (h : setReference n g a c = .ok c') :
    c'.map LiveSection.mark = c.map LiveSection.mark := by
  induction c generalizing c' with
  | nil => cases h
  | cons s c ih =>
    unfold setReference at h
    split at h
    · cases hc : setReference n g a c with
      | error f => rw [hc] at h; cases h
      | ok d => rw [hc] at h; injection h with h; subst h; simp [ih hc]
    · split at h
      · injection h with h; subst h; simp [setObject_mark]
      · cases h

/-- The entry for an unlisted stream is found in the chain: it gets the stream, and nothing else changes. -/
theorem Lines.set {h : List Rev} {K : Nat → Nat → Prop} {k : Nat} {c : List LiveSection} {p : List Rev} (ht : Truthful h)
    (l : Lines h K k c p) {r : Rev} {q : Int × ParsedSection} {n g : Nat} (hr : r ∈ h) (hq : q ∈ r.streams)
    (hu : Unlisted q n g) (hs : (liveEntry c n g).isSome) :
    ∃ c', setReference n g q.1 c = .ok c' ∧ Lines h K k c' p ∧
      ∀ m i, (∃ s ∈ c', (s.get m i).isSome) ↔ ∃ s ∈ c, (s.get m i).isSome := by
  induction l with
  | nil k => simp [liveEntry] at hs
  | virt k s c p hv l ih =>
    unfold setReference
    cases hg : s.get n g with
    | none =>
      obtain ⟨c', h1, h2, h3⟩ := ih (by unfold liveEntry at *; simpa [hg] using hs)
      refine ⟨s :: c', by simp [h1, Except.map], .virt k s c' p hv h2, fun m i => ?_⟩
      simp only [List.mem_cons, exists_eq_or_imp, h3]
    | some e =>
      obtain ⟨r', q', hr', hq', hu', he', rfl⟩ := virt_get hv hg
      have hqq : q'.1 = q.1 := (ht.alone r hr q hq n g hu).2 r' hr' q' hq' hu'
      have hsame : s.setObject n q.1 = s := by
        unfold LiveSection.setObject
        rw [he', if_pos (by simp [liveFind])]
        obtain ⟨sk, so, st, sp, ss, se, sh⟩ := s
        simp only at he'
        subst he'
        simp [liveBind, hqq]
      refine ⟨_, rfl, ?_, ?_⟩
      · rw [hsame]; exact .virt k s c p hv l
      · rw [hsame]; exact fun m i => Iff.rfl
  | real k s r' c p hr' mt l ih =>
    unfold setReference
    cases hg : s.get n g with
    | none =>
      obtain ⟨c', h1, h2, h3⟩ := ih (by unfold liveEntry at *; simpa [hg] using hs)
      refine ⟨s :: c', by simp [h1, Except.map], .real k s r' c' p hr' mt h2, fun m i => ?_⟩
      simp only [List.mem_cons, exists_eq_or_imp, h3]
    | some e =>
      have hk := (ht.alone r hr q hq n g hu).1 r' hr' _ (mt.get hg).1
      dsimp only
      rw [hk]
      refine ⟨_, rfl, .real k _ r' c p hr' (setObject_matches mt hg hk) l, fun m i => ?_⟩
      simp only [List.mem_cons, exists_eq_or_imp, setObject_get]

theorem Lines.append_virt {h : List Rev} {K : Nat → Nat → Prop} {k : Nat} {c : List LiveSection} {p : List Rev}
    (l : Lines h K k c p) {s : LiveSection} (hv : Virt h s) : Lines h K k (c ++ [s]) p := by
  induction l with
  | nil k => exact .virt k s [] [] hv (.nil _)
  | virt k s' c p hv' _ ih => exact .virt k s' _ p hv' ih
  | real k s' r c p hr m _ ih => exact .real k s' r _ p hr m ih

theorem Lines.append_real {h : List Rev} {K : Nat → Nat → Prop} {k : Nat} {c : List LiveSection} {p : List Rev}
    (l : Lines h K k c p) (hk : k = 0) {s : LiveSection} {r : Rev} (hr : r ∈ h) (m : MatchesRev K s r False) :
    Lines h K k (c ++ [s]) (p ++ [r]) := by
  induction l with
  | nil k => exact .real k s r [] [] hr ⟨m.kind, m.origin, m.trailer, m.stm, m.ent, fun h => by omega,
      fun _ => m.nohyb id, m.snd, m.sndh, m.cov, fun h => by omega⟩ (.nil _)
  | virt k s' c p hv' _ ih => exact .virt k s' _ _ hv' (ih (by omega))
  | real k s' r c p hr m _ ih => exact .real k s' r _ _ hr m (ih (by omega))

theorem setReference_append {n g : Nat} {a : Int} {c d : List LiveSection} (hn : ∀ s ∈ c, s.get n g = none) :
    setReference n g a (c ++ d) = (setReference n g a d).map (c ++ ·) := by
  induction c with
  | nil => cases hd : setReference n g a d <;> simp [hd, Except.map]
  | cons s c ih =>
    rw [List.cons_append, setReference, hn s (by simp), ih (fun s hs => hn s (by simp [hs]))]
    cases setReference n g a d <;> rfl

/-! ### Reading the sections -/

/-- The objects that the chain knows. -/
def Known (c : List LiveSection) (n g : Nat) : Prop := ∃ s ∈ c, (s.get n g).isSome

theorem known_iff {c : List LiveSection} {n g : Nat} : Known c n g ↔ (liveEntry c n g).isSome := by
  unfold Known
  cases h : liveEntry c n g with
  | none =>
    rw [liveEntry_none] at h
    simp only [Option.isSome_none, Bool.false_eq_true, iff_false, not_exists, not_and]
    intro s hs; simp [h s hs]
  | some e =>
    unfold liveEntry at h
    obtain ⟨s, hs, he⟩ := List.exists_of_findSome?_eq_some h
    exact ⟨fun _ => rfl, fun _ => ⟨s, hs, by simp [he]⟩⟩

/-- The marks of a chain with virtual tables behind it. -/
def Extends (c c' : List LiveSection) : Prop :=
  ∃ t, c'.map LiveSection.mark = c.map LiveSection.mark ++ t ∧ ∀ y ∈ t, y.1 = SectionKind.virtual

theorem extends_refl (c : List LiveSection) : Extends c c := ⟨[], by simp, by simp⟩

theorem isOwn_iff {n g : Nat} {e : XEntry} : isOwn (n, g) e = true ↔ (∃ off, e.kind = .used off) ∧ e.num = n ∧ e.gen = g := by
  unfold isOwn
  cases e.kind <;> simp

theorem unlisted_iff {at_ : Int} {x : ParsedSection} {n g : Nat} (ho : x.own = some (n, g)) :
    Unlisted (at_, x) n g ↔ x.rows.any (isOwn (n, g)) = false := by
  unfold Unlisted
  rw [List.any_eq_false]
  constructor
  · intro h e he hw
    obtain ⟨⟨off, hk⟩, h1, h2⟩ := isOwn_iff.mp hw
    exact h.2 e he off hk ⟨h1, h2⟩
  · intro h
    exact ⟨ho, fun e he off hk hw => h e he (isOwn_iff.mpr ⟨⟨off, hk⟩, hw⟩)⟩

/-- A cross-reference stream is placed: the chain keeps what it knew and knows the stream. -/
theorem place_ok {h : List Rev} (ht : Truthful h) {k : Nat} {c : List LiveSection} {p : List Rev}
    (l : Lines h (Known c) k c p) {r : Rev} {at_ : Int} {x : ParsedSection} {n g : Nat} (hr : r ∈ h)
    (hq : (at_, x) ∈ r.streams) (ho : x.own = some (n, g)) :
    ∃ c', placeStream c at_ (n, g) x = .ok (c', ⟨.stream, some at_, x.trailer, x.prev, x.stm, streamEntries (n, g) at_ x.rows, []⟩) ∧
      Lines h (Known c') k c' p ∧ (∀ m i, Known c m i → Known c' m i) ∧ (Unlisted (at_, x) n g → Known c' n g) ∧ Extends c c' := by
  unfold placeStream
  dsimp only
  by_cases hw : x.rows.any (isOwn (n, g)) = true
  · rw [if_pos hw]
    exact ⟨c, rfl, l, fun _ _ h => h, fun u => (by rw [unlisted_iff ho, hw] at u; cases u), extends_refl c⟩
  · rw [if_neg hw]
    have hu : Unlisted (at_, x) n g := (unlisted_iff ho).mpr (by simpa using hw)
    by_cases hc : (liveEntry c n g).isSome = true
    · rw [if_pos hc]
      obtain ⟨c', h1, h2, h3⟩ := l.set ht hr hq hu hc
      have h1' : setReference n g at_ c = .ok c' := h1
      have hk : ∀ m i, Known c m i ↔ Known c' m i := fun m i => (h3 m i).symm
      refine ⟨c', by rw [h1']; rfl, h2.mono fun m i => (hk m i).mp, fun m i => (hk m i).mp,
        fun _ => (hk n g).mp (known_iff.mpr hc), [], by simpa using setReference_mark h1, by simp⟩
    · rw [if_neg hc]
      have hn : liveEntry c n g = none := by simpa using hc
      have hn' := liveEntry_none.mp hn
      have hset : setReference n g at_ [virtualSection (n, g)] =
          .ok [⟨.virtual, none, [], none, none, [⟨⟨n, g, .used (-1)⟩, some at_⟩], []⟩] := by
        simp [setReference, virtualSection, LiveSection.get, liveFind, LiveSection.setObject, liveBind]
      rw [setReference_append hn', hset]
      have hv : Virt h ⟨.virtual, none, [], none, none, [⟨⟨n, g, .used (-1)⟩, some at_⟩], []⟩ :=
        ⟨rfl, rfl, r, (at_, x), n, g, hr, hq, hu, rfl⟩
      have hk : ∀ m i, Known c m i → Known (c ++ [⟨.virtual, none, [], none, none, [⟨⟨n, g, .used (-1)⟩, some at_⟩], []⟩]) m i :=
        fun m i ⟨s, hs, he⟩ => ⟨s, by simp [hs], he⟩
      refine ⟨_, rfl, (l.append_virt hv).mono hk, hk, fun _ => ⟨_, List.mem_append_right _ (List.mem_singleton.mpr rfl), ?_⟩,
        [(.virtual, none, [], none, none)], by simp [LiveSection.mark], by simp⟩
      simp [LiveSection.get, liveFind]

theorem lastEntry_mem {n : Nat} {rows : List XEntry} {e : XEntry} (h : lastEntry n rows = some e) : e ∈ rows ∧ e.num = n := by
  unfold lastEntry at h
  have := List.mem_of_find?_eq_some h
  exact ⟨by simpa using this, by simpa using List.find?_some h⟩

theorem stream_find (n g : Nat) (at_ : Int) (rows : List XEntry) (m : Nat) :
    liveFind m (streamEntries (n, g) at_ rows) =
      (lastEntry m rows).map fun e => ⟨e, if isOwn (n, g) e then some at_ else none⟩ := by
  unfold streamEntries
  rw [liveFind_rows m (fun e => ⟨e, if isOwn (n, g) e then some at_ else none⟩) (fun _ => rfl) rows []]
  simp [liveFind]

theorem table_find (rows : List XEntry) (m : Nat) :
    liveFind m (rows.foldl (fun l e => liveAdd l ⟨e, none⟩) []) = (lastEntry m rows).map fun e => ⟨e, none⟩ := by
  rw [liveFind_rows m (fun e => ⟨e, none⟩) (fun _ => rfl) rows []]
  simp [liveFind]

theorem stream_sound {h : List Rev} (ht : Truthful h) {r : Rev} {at_ : Int} {x : ParsedSection} {n g : Nat} (hr : r ∈ h)
    (hq : (at_, x) ∈ r.streams) (ho : x.own = some (n, g)) (m : Nat) (e : LiveEntry) (a : Int)
    (hf : liveFind m (streamEntries (n, g) at_ x.rows) = some e) (he : e.object = some a) : e.entry.kind = .used a := by
  rw [stream_find] at hf
  cases hl : lastEntry m x.rows with
  | none => rw [hl] at hf; cases hf
  | some y =>
    rw [hl, Option.map_some] at hf
    injection hf with hf
    subst hf
    dsimp only at he ⊢
    split at he
    · rename_i hw
      injection he with he
      obtain ⟨⟨off, hk⟩, h1, h2⟩ := isOwn_iff.mp hw
      rw [hk, ht.own r hr (at_, x) hq n g ho y (lastEntry_mem hl).1 h1 h2 off hk, ← he]
    · cases he

/-- A section of a revision is placed. -/
theorem section_ok {h : List Rev} (ht : Truthful h) {parse : Int → Res ParsedSection} {c : List LiveSection} {p : List Rev}
    (l : Lines h (Known c) 0 c p) {r : Rev} (hr : r ∈ h) (hp : parse r.at_ = .ok r.text) :
    ∃ c' s, placeSection parse c r.at_ = .ok (c', s) ∧ s.prev = r.text.prev ∧
      Lines h (Known (c' ++ [s])) 0 (c' ++ [s]) (p ++ [r]) := by
  unfold placeSection
  rw [hp, ok_bind]
  cases ho : r.text.own with
  | none =>
    refine ⟨c, _, rfl, rfl, (l.mono fun m i ⟨s, hs, he⟩ => ⟨s, by simp [hs], he⟩).append_real rfl hr ?_⟩
    refine ⟨by simp [ho], rfl, rfl, rfl, fun n => ?_, fun h => h.elim, fun _ => rfl, fun n e a hf he => ?_,
      fun n e a hf he => (by simp [liveFind] at hf), fun n g hu => (by rw [Unlisted] at hu; rw [ho] at hu; cases hu.1), fun h => h.elim⟩
    · dsimp only
      rw [table_find]; cases lastEntry n r.text.rows <;> rfl
    · dsimp only at hf
      rw [table_find] at hf
      cases hl : lastEntry n r.text.rows with
      | none => rw [hl] at hf; cases hf
      | some y => rw [hl] at hf; injection hf with hf; subst hf; cases he
  | some own =>
    obtain ⟨n, g⟩ := own
    have hq : (r.at_, r.text) ∈ r.streams := by simp [Rev.streams]
    obtain ⟨c', h1, h2, h3, h4, _⟩ := place_ok ht l hr hq ho
    refine ⟨c', _, h1, rfl, (h2.mono fun m i ⟨s, hs, he⟩ => ⟨s, by simp [hs], he⟩).append_real rfl hr ?_⟩
    refine ⟨by simp [ho], rfl, rfl, rfl, fun m => ?_, fun h => h.elim, fun _ => rfl, fun m e a hf he => ?_,
      fun n e a hf he => (by simp [liveFind] at hf), fun m i hu => ?_, fun h => h.elim⟩
    · dsimp only
      rw [stream_find]; cases lastEntry m r.text.rows <;> rfl
    · exact stream_sound ht hr hq ho m e a hf he
    · have := hu.1
      dsimp only at this
      rw [ho] at this
      injection this with this
      injection this with e1 e2; subst e1; subst e2
      obtain ⟨s, hs, he⟩ := h4 hu
      exact ⟨s, by simp [hs], he⟩

theorem sections_ok {h : List Rev} (ht : Truthful h) {parse : Int → Res ParsedSection} {at_ : Int} {l : List Rev}
    (hl : History parse at_ l) : (∀ r ∈ l, r ∈ h) → ∀ (c : List LiveSection) (p : List Rev) (f : Nat), l.length ≤ f →
      Lines h (Known c) 0 c p → ∃ c', readSections parse f c at_ = .ok c' ∧ Lines h (Known c') 0 c' (p ++ l) := by
  induction hl with
  | last r h1 h2 h3 =>
    intro hm c p f hf hc
    obtain ⟨f, rfl⟩ : ∃ f', f = f' + 1 := ⟨f - 1, by simp at hf; omega⟩
    obtain ⟨c', s, e1, e2, e3⟩ := section_ok ht hc (hm r (by simp)) h1
    refine ⟨c' ++ [s], ?_, e3⟩
    rw [readSections, e1, ok_bind]
    dsimp only
    rw [e2, h3]
  | more r q l h1 h2 h3 h4 ih =>
    intro hm c p f hf hc
    obtain ⟨f, rfl⟩ : ∃ f', f = f' + 1 := ⟨f - 1, by simp at hf; omega⟩
    obtain ⟨c', s, e1, e2, e3⟩ := section_ok ht hc (hm r (by simp)) h1
    obtain ⟨c2, g1, g2⟩ := ih (fun r hr => hm r (by simp [hr])) (c' ++ [s]) (p ++ [r]) f (by simp at hf; omega) e3
    refine ⟨c2, ?_, by simpa using g2⟩
    rw [readSections, e1, ok_bind]
    dsimp only
    rw [e2, h3]
    exact g1

/-! ### Hybrid streams -/

theorem Lines.atIndex {h : List Rev} {K : Nat → Nat → Prop} {k : Nat} {c : List LiveSection} {p : List Rev}
    (l : Lines h K k c p) : ∀ (i : Nat) (s : LiveSection), c[i]? = some s →
      Virt h s ∨ ∃ r ∈ p, r ∈ h ∧ MatchesRev K s r (i < k) := by
  induction l with
  | nil k => intro i s hs; simp at hs
  | virt k s c p hv l ih =>
    intro i x hx
    cases i with
    | zero => simp at hx; subst hx; exact .inl hv
    | succ i =>
      rcases ih i x (by simpa using hx) with h' | ⟨r, hr, hh, hm⟩
      · exact .inl h'
      · exact .inr ⟨r, hr, hh, by rwa [show (i + 1 < k) = (i < k - 1) by simp; omega]⟩
  | real k s r c p hr m l ih =>
    intro i x hx
    cases i with
    | zero => simp at hx; subst hx; exact .inr ⟨r, by simp, hr, m⟩
    | succ i =>
      rcases ih i x (by simpa using hx) with h' | ⟨r, hr, hh, hm⟩
      · exact .inl h'
      · exact .inr ⟨r, by simp [hr], hh, by rwa [show (i + 1 < k) = (i < k - 1) by simp; omega]⟩

theorem MatchesRev.congr {K : Nat → Nat → Prop} {s : LiveSection} {r : Rev} {d d' : Prop} (m : MatchesRev K s r d) (h : d ↔ d') :
    MatchesRev K s r d' := by rwa [← propext h]

theorem Lines.advance {h : List Rev} {K : Nat → Nat → Prop} {i : Nat} {c : List LiveSection} {p : List Rev}
    (f : LiveSection → LiveSection) (l : Lines h K i c p)
    (hf : ∀ s, c[i]? = some s → (Virt h s → Virt h (f s)) ∧ ∀ r ∈ p, MatchesRev K s r False → MatchesRev K (f s) r True) :
    Lines h K (i + 1) (c.modify i f) p := by
  generalize hk : i = k at l
  induction l generalizing i with
  | nil k => rw [show ([] : List LiveSection).modify k f = [] by simp]; exact .nil _
  | virt k s c p hv l ih =>
    cases k with
    | zero => exact .virt 1 _ c p ((hf s (by simp [hk])).1 hv) l
    | succ k =>
      subst hk
      exact .virt _ s _ p hv (ih (i := k) (fun s hs => hf s (by simpa using hs)) rfl)
  | real k s r c p hr m l ih =>
    cases k with
    | zero => exact .real 1 _ r c p hr (((hf s (by simp [hk])).2 r (by simp) (m.congr (by simp))).congr (by simp)) l
    | succ k =>
      subst hk
      exact .real _ s r _ p hr (m.congr (by simp))
        (ih (i := k) (fun s hs => ⟨(hf s (by simpa using hs)).1, fun r hr => (hf s (by simpa using hs)).2 r (by simp [hr])⟩) rfl)

theorem known_modify {c : List LiveSection} {i : Nat} {f : LiveSection → LiveSection} {n g : Nat}
    (hf : ∀ s, c[i]? = some s → (s.get n g).isSome → ((f s).get n g).isSome) (hk : Known c n g) : Known (c.modify i f) n g := by
  obtain ⟨s, hs, he⟩ := hk
  obtain ⟨j, hj, hjs⟩ := List.getElem_of_mem hs
  by_cases hij : i = j
  · subst hij
    have : c[i]? = some s := by rw [List.getElem?_eq_getElem hj, hjs]
    refine ⟨f s, ?_, hf s this he⟩
    have : (c.modify i f)[i]? = some (f s) := by simp [this]
    exact List.mem_of_getElem? this
  · refine ⟨s, ?_, he⟩
    have : (c.modify i f)[j]? = some s := by
      rw [List.getElem?_modify, List.getElem?_eq_getElem hj, hjs]; simp [hij]
    exact List.mem_of_getElem? this

theorem get_hybrid {s : LiveSection} (hs : s.hybrid = []) (l : List LiveEntry) {n g : Nat} (h : (s.get n g).isSome) :
    (({ s with hybrid := l } : LiveSection).get n g).isSome := by
  unfold LiveSection.get at *
  rw [hs] at h
  dsimp only
  cases he : liveFind n s.entries with
  | none => rw [he] at h; simp [liveFind] at h
  | some x => rw [he] at h; simpa using h

theorem extends_index {c c' : List LiveSection} (h : Extends c c') {i : Nat} (hi : i < c.length) :
    (c'[i]?).map LiveSection.mark = (c[i]?).map LiveSection.mark := by
  obtain ⟨t, h1, _⟩ := h
  have := congrArg (fun l => l[i]?) h1
  simp only [List.getElem?_map] at this
  rw [this, List.getElem?_append_left (by simpa using hi), List.getElem?_map]

theorem hybrid_ok {h : List Rev} (ht : Truthful h) {parse : Int → Res ParsedSection} {c : List LiveSection} {p : List Rev} {i : Nat}
    (l : Lines h (Known c) i c p) (hi : i < c.length) (hp : ∀ r ∈ p, HybridOf parse r.text r.hybrid) :
    ∃ c', hybridStep parse c i = .ok c' ∧ Lines h (Known c') (i + 1) c' p ∧ Extends c c' := by
  obtain ⟨s, hs⟩ : ∃ s, c[i]? = some s := ⟨c[i], List.getElem?_eq_getElem hi⟩
  have still : (∀ r ∈ p, MatchesRev (Known c) s r False → r.hybrid = none) → ∃ c', .ok c = (.ok c' : Res _) ∧
      Lines h (Known c') (i + 1) c' p ∧ Extends c c' := by
    intro hn
    refine ⟨c, rfl, ?_, extends_refl c⟩
    have := l.advance (f := id) (fun x hx => ⟨id, fun r hr m => ?_⟩)
    · simpa using this
    · rw [hs] at hx; injection hx with hx; subst hx
      have hh := hn r hr m
      exact ⟨m.kind, m.origin, m.trailer, m.stm, m.ent, fun _ n => by
        show (liveFind n s.hybrid).map _ = _
        rw [m.nohyb id, hh]; rfl, fun h => absurd trivial h, m.snd, m.sndh, m.cov, fun _ q hq => (by rw [hh] at hq; cases hq)⟩
  unfold hybridStep
  rw [hs]
  dsimp only
  by_cases hk : s.kind = .table
  · rw [if_pos hk]
    cases hst : s.stm with
    | none =>
      refine still fun r hr m => ?_
      have hy := hp r hr
      cases hq : r.hybrid with
      | none => rfl
      | some q =>
        obtain ⟨off, y⟩ := q
        rw [hq] at hy
        have := hy.2.1
        rw [← m.stm, hst] at this; cases this
    | some off =>
      dsimp only
      rcases l.atIndex i s hs with hv | ⟨r, hr, hrh, m⟩
      · rw [hv.1] at hk; cases hk
      have m : MatchesRev (Known c) s r False := m.congr (by simp)
      have hown : r.text.own = none := by
        have := m.kind
        rw [hk] at this
        cases ho : r.text.own with
        | none => rfl
        | some o => rw [ho] at this; cases this
      have hy := hp r hr
      cases hq : r.hybrid with
      | none =>
        rw [hq] at hy
        rcases hy with hy | hy
        · exact absurd hown hy
        · rw [← m.stm, hst] at hy; cases hy
      | some q =>
        obtain ⟨off', y⟩ := q
        rw [hq] at hy
        obtain ⟨_, hy1, hy2, hy3⟩ := hy
        have hoff : off' = off := by rw [← m.stm, hst] at hy1; injection hy1 with hy1; exact hy1.symm
        subst hoff
        obtain ⟨⟨n, g⟩, ho⟩ : ∃ o, y.own = some o := by
          cases ho : y.own with
          | none => exact absurd ho hy3
          | some o => exact ⟨o, rfl⟩
        have hmem : (off', y) ∈ r.streams := by simp [Rev.streams, hq]
        obtain ⟨c1, p1, p2, p3, p4, p5⟩ := place_ok ht l hrh hmem ho
        have hplace : placeSection parse c off' = placeStream c off' (n, g) y := by
          unfold placeSection; rw [hy2, ok_bind, ho]
        rw [hplace, p1, ok_bind]
        dsimp only
        rw [if_pos rfl]
        have hmark := extends_index p5 hi
        obtain ⟨s1, hs1⟩ : ∃ s, c1[i]? = some s := by
          cases hc1 : c1[i]? with
          | none => rw [hc1, hs] at hmark; cases hmark
          | some s1 => exact ⟨s1, rfl⟩
        rw [hs1, hs] at hmark
        have hmark : s1.mark = s.mark := by simpa using hmark
        have hk1 : s1.kind = .table := by rw [← hk]; exact congrArg (·.1) hmark
        have hst1 : s1.stm = some off' := by rw [← hst]; exact congrArg (·.2.2.2.2) hmark
        have hempty : s1.hybrid = [] := by
          rcases p2.atIndex i s1 hs1 with hv | ⟨r', _, _, m'⟩
          · exact hv.2.1
          · exact m'.nohyb (by simp)
        have hkn : ∀ m j, Known c1 m j → Known (c1.modify i fun s => { s with hybrid := streamEntries (n, g) off' y.rows }) m j :=
          fun m j hc => known_modify (fun x hx hgx => by
            rw [hs1] at hx; injection hx with hx; subst hx
            exact get_hybrid hempty _ hgx) hc
        refine ⟨_, rfl, ?_, ?_⟩
        · refine Lines.mono (K := Known c1) ?_ hkn
          refine p2.advance _ (fun x hx => ⟨fun hv => ?_, fun r' hr' m' => ?_⟩)
          · rw [hs1] at hx; injection hx with hx; subst hx
            rw [hv.1] at hk1; cases hk1
          · rw [hs1] at hx; injection hx with hx; subst hx
            have hown' : r'.text.own = none := by
              have := m'.kind
              rw [hk1] at this
              cases ho : r'.text.own with
              | none => rfl
              | some o => rw [ho] at this; cases this
            have hy' := hp r' hr'
            have hq' : r'.hybrid = some (off', y) := by
              cases hq' : r'.hybrid with
              | none =>
                rw [hq'] at hy'
                rcases hy' with hy' | hy'
                · exact absurd hown' hy'
                · rw [← m'.stm, hst1] at hy'; cases hy'
              | some q' =>
                obtain ⟨o', y'⟩ := q'
                rw [hq'] at hy'
                obtain ⟨_, a1, a2, _⟩ := hy'
                have : o' = off' := by rw [← m'.stm, hst1] at a1; injection a1 with a1; exact a1.symm
                subst this
                rw [hy2] at a2; injection a2 with a2; rw [a2]
            refine ⟨m'.kind, m'.origin, m'.trailer, m'.stm, m'.ent, fun _ m => ?_, fun h => absurd trivial h, m'.snd,
              fun m e a => stream_sound ht hrh hmem ho m e a, m'.cov, fun _ q hq2 m j hu => ?_⟩
            · dsimp only
              rw [stream_find, hq']
              show _ = lastEntry m y.rows
              cases lastEntry m y.rows <;> rfl
            · rw [hq'] at hq2; injection hq2 with hq2; subst hq2
              have h1 := hu.1
              dsimp only at h1
              rw [ho] at h1
              injection h1 with h1; injection h1 with e1 e2; subst e1; subst e2
              exact p4 hu
        · obtain ⟨t, t1, t2⟩ := p5
          refine ⟨t, ?_, t2⟩
          rw [← t1]
          apply List.ext_getElem?
          intro j
          rw [List.getElem?_map, List.getElem?_map, List.getElem?_modify]
          cases c1[j]? with
          | none => rfl
          | some x => by_cases hij : i = j <;> simp [hij, LiveSection.mark]
  · rw [if_neg hk]
    refine still fun r hr m => ?_
    have hy := hp r hr
    cases hq : r.hybrid with
    | none => rfl
    | some q =>
      obtain ⟨off, y⟩ := q
      rw [hq] at hy
      have := m.kind
      rw [hy.1] at this
      exact absurd this hk

theorem extends_trans {a b c : List LiveSection} (h1 : Extends a b) (h2 : Extends b c) : Extends a c := by
  obtain ⟨t, t1, t2⟩ := h1
  obtain ⟨u, u1, u2⟩ := h2
  exact ⟨t ++ u, by rw [u1, t1, List.append_assoc], fun y hy => (List.mem_append.mp hy).elim (t2 y) (u2 y)⟩

theorem extends_length {a b : List LiveSection} (h : Extends a b) : a.length ≤ b.length := by
  obtain ⟨t, t1, _⟩ := h
  have := congrArg List.length t1
  simp at this; omega

theorem hybrids_ok {h : List Rev} (ht : Truthful h) {parse : Int → Res ParsedSection} {p : List Rev}
    (hp : ∀ r ∈ p, HybridOf parse r.text r.hybrid) (m : Nat) : ∀ (i : Nat) (c : List LiveSection), Lines h (Known c) i c p →
      i + m ≤ c.length → ∃ c', (List.range' i m).foldlM (hybridStep parse) c = .ok c' ∧ Lines h (Known c') (i + m) c' p ∧
        Extends c c' := by
  induction m with
  | zero => intro i c l _; exact ⟨c, rfl, l, extends_refl c⟩
  | succ m ih =>
    intro i c l hi
    obtain ⟨c1, h1, h2, h3⟩ := hybrid_ok ht l (by omega) hp
    obtain ⟨c2, g1, g2, g3⟩ := ih (i + 1) c1 h2 (by have := extends_length h3; omega)
    refine ⟨c2, ?_, by rwa [show i + (m + 1) = i + 1 + m by omega], extends_trans h3 g3⟩
    rw [List.range'_succ, List.foldlM_cons, h1, ok_bind]
    exact g1

/-! ### Looking up -/

theorem Lines.finish {h : List Rev} {K : Nat → Nat → Prop} {k : Nat} {c : List LiveSection} {p : List Rev}
    (l : Lines h K k c p) : (∀ s ∈ c.drop k, s.kind = .virtual) → ∀ j, k ≤ j → Lines h K j c p := by
  induction l with
  | nil k => intro _ j _; exact .nil j
  | virt k s c p hv l ih =>
    intro hd j hj
    refine .virt j s c p hv (ih (fun x hx => hd x ?_) (j - 1) (by omega))
    cases k with
    | zero => simp at hx ⊢; exact .inr hx
    | succ k => simpa using hx
  | real k s r c p hr m l ih =>
    intro hd j hj
    have hk : 0 < k := by
      rcases Nat.eq_zero_or_pos k with rfl | h
      · have := hd s (by simp)
        rw [m.kind] at this
        split at this <;> cases this
      · exact h
    refine .real j s r c p hr (m.congr ⟨fun _ => by omega, fun _ => hk⟩) (ih (fun x hx => hd x ?_) (j - 1) (by omega))
    obtain ⟨k, rfl⟩ : ∃ k', k = k' + 1 := ⟨k - 1, by omega⟩
    simpa using hx

theorem Lines.found {h : List Rev} {K : Nat → Nat → Prop} {k : Nat} {c : List LiveSection} {p : List Rev}
    (l : Lines h K k c p) {n g : Nat} {e : LiveEntry} : c.length ≤ k → liveEntry c n g = some e →
      (∃ r q, r ∈ h ∧ q ∈ r.streams ∧ Unlisted q n g ∧ e = ⟨⟨n, g, .used (-1)⟩, some q.1⟩) ∨
      (p.findSome? (fun r => r.lists n g) = some e.entry.kind ∧ ∀ a, e.object = some a → e.entry.kind = .used a) := by
  induction l with
  | nil k => intro _ he; cases he
  | virt k s c p hv l ih =>
    intro hk he
    unfold liveEntry at he
    rw [List.findSome?_cons] at he
    cases hg : s.get n g with
    | none => rw [hg] at he; exact ih (by simp at hk; omega) he
    | some x =>
      rw [hg] at he
      injection he with he; subst he
      obtain ⟨r, q, h1, h2, h3, _, h4⟩ := virt_get hv hg
      exact .inl ⟨r, q, h1, h2, h3, h4⟩
  | real k s r c p hr m l ih =>
    intro hk he
    unfold liveEntry at he
    rw [List.findSome?_cons] at he
    cases hg : s.get n g with
    | none =>
      rw [hg] at he
      rw [List.findSome?_cons, m.get_none (by simp at hk; omega) hg]
      exact ih (by simp at hk; omega) he
    | some x =>
      rw [hg] at he
      injection he with he; subst he
      rw [List.findSome?_cons, (m.get hg).1]
      exact .inr ⟨rfl, (m.get hg).2⟩

theorem Lines.covers {h : List Rev} {K : Nat → Nat → Prop} {k : Nat} {c : List LiveSection} {p : List Rev}
    (l : Lines h K k c p) : c.length ≤ k → ∀ r ∈ p, ∀ n g, (∀ s ∈ c, s.get n g = none) → r.lists n g = none ∧
      ∀ q ∈ r.streams, Unlisted q n g → K n g := by
  induction l with
  | nil k => intro _ r hr; cases hr
  | virt k s c p hv l ih =>
    intro hk r hr n g hs
    exact ih (by simp at hk; omega) r hr n g (fun s hs' => hs s (by simp [hs']))
  | real k s r c p hr m l ih =>
    intro hk r' hr' n g hs
    rcases List.mem_cons.mp hr' with rfl | hr'
    · have hpos : 0 < k := by simp at hk; omega
      refine ⟨m.get_none hpos (hs s (by simp)), fun q hq hu => ?_⟩
      unfold Rev.streams at hq
      rcases List.mem_cons.mp hq with rfl | hq
      · exact m.cov n g hu
      · exact m.covh hpos q (by simpa using hq) n g hu
    · exact ih (by simp at hk; omega) r' hr' n g (fun s hs' => hs s (by simp [hs']))

/-! ### The first section -/

theorem placeSection_marks {parse : Int → Res ParsedSection} {c c' : List LiveSection} {at_ : Int} {s : LiveSection}
    (h : placeSection parse c at_ = .ok (c', s)) :
    (∃ t, c'.map LiveSection.mark = c.map LiveSection.mark ++ t ∧ (t = [] ∨ ∃ y, t = [y] ∧ y.1 = .virtual)) ∧
      s.kind ≠ .virtual ∧ s.origin = some at_ ∧ ∃ x, parse at_ = .ok x ∧ s.trailer = x.trailer := by
  unfold placeSection at h
  cases hp : parse at_ with
  | error f => rw [hp] at h; cases h
  | ok x =>
    rw [hp, ok_bind] at h
    cases ho : x.own with
    | none =>
      rw [ho] at h
      injection h with h; injection h with e1 e2; subst e1; subst e2
      exact ⟨⟨[], by simp, .inl rfl⟩, by simp, rfl, x, rfl, rfl⟩
    | some own =>
      rw [ho] at h
      dsimp only at h
      unfold placeStream at h
      dsimp only at h
      split at h
      · injection h with h; injection h with e1 e2; subst e1; subst e2
        exact ⟨⟨[], by simp, .inl rfl⟩, by simp, rfl, x, rfl, rfl⟩
      · split at h
        · cases hr : setReference own.1 own.2 at_ c with
          | error f => rw [hr] at h; cases h
          | ok d =>
            rw [hr] at h
            injection h with h; injection h with e1 e2; subst e1; subst e2
            exact ⟨⟨[], by simpa using setReference_mark hr, .inl rfl⟩, by simp, rfl, x, rfl, rfl⟩
        · cases hr : setReference own.1 own.2 at_ (c ++ [virtualSection own]) with
          | error f => rw [hr] at h; cases h
          | ok d =>
            rw [hr] at h
            injection h with h; injection h with e1 e2; subst e1; subst e2
            exact ⟨⟨[(virtualSection own).mark], by simpa using setReference_mark hr, .inr ⟨_, rfl, rfl⟩⟩, by simp, rfl, x, rfl, rfl⟩

theorem readSections_marks {parse : Int → Res ParsedSection} {f : Nat} : ∀ {c c' : List LiveSection} {at_ : Int},
    readSections parse f c at_ = .ok c' → ∃ t, c'.map LiveSection.mark = c.map LiveSection.mark ++ t := by
  induction f with
  | zero => intro c c' at_ h; cases h
  | succ f ih =>
    intro c c' at_ h
    rw [readSections] at h
    cases hp : placeSection parse c at_ with
    | error e => rw [hp] at h; cases h
    | ok r =>
      obtain ⟨c1, s⟩ := r
      rw [hp, ok_bind] at h
      dsimp only at h
      obtain ⟨⟨t, t1, _⟩, _⟩ := placeSection_marks hp
      split at h
      · injection h with h; subst h
        exact ⟨t ++ [s.mark], by simp [t1]⟩
      · obtain ⟨u, hu⟩ := ih h
        exact ⟨t ++ s.mark :: u, by rw [hu]; simp [t1]⟩

theorem hybridStep_marks {parse : Int → Res ParsedSection} {c c' : List LiveSection} {i : Nat}
    (h : hybridStep parse c i = .ok c') : ∃ t, c'.map LiveSection.mark = c.map LiveSection.mark ++ t := by
  unfold hybridStep at h
  split at h
  · injection h with h; subst h; exact ⟨[], by simp⟩
  · split at h
    · split at h
      · injection h with h; subst h; exact ⟨[], by simp⟩
      · rename_i off _
        cases hp : placeSection parse c off with
        | error e => rw [hp] at h; cases h
        | ok r =>
          obtain ⟨c1, s⟩ := r
          rw [hp, ok_bind] at h
          dsimp only at h
          obtain ⟨⟨t, t1, _⟩, _⟩ := placeSection_marks hp
          split at h
          · injection h with h; subst h
            refine ⟨t, ?_⟩
            rw [← t1]
            apply List.ext_getElem?
            intro j
            rw [List.getElem?_map, List.getElem?_map, List.getElem?_modify]
            cases c1[j]? with
            | none => rfl
            | some x => by_cases hij : i = j <;> simp [hij, LiveSection.mark]
          · cases h
    · injection h with h; subst h; exact ⟨[], by simp⟩

theorem hybridSteps_marks {parse : Int → Res ParsedSection} (is : List Nat) : ∀ {c c' : List LiveSection},
    is.foldlM (hybridStep parse) c = .ok c' → ∃ t, c'.map LiveSection.mark = c.map LiveSection.mark ++ t := by
  induction is with
  | nil => intro c c' h; injection h with h; subst h; exact ⟨[], by simp⟩
  | cons i is ih =>
    intro c c' h
    rw [List.foldlM_cons] at h
    cases hs : hybridStep parse c i with
    | error e => rw [hs] at h; cases h
    | ok d =>
      rw [hs, ok_bind] at h
      obtain ⟨t, ht⟩ := hybridStep_marks hs
      obtain ⟨u, hu⟩ := ih h
      exact ⟨t ++ u, by rw [hu, ht, List.append_assoc]⟩

theorem history_mem {parse : Int → Res ParsedSection} {at_ : Int} {l : List Rev} (hl : History parse at_ l) :
    ∀ r ∈ l, HybridOf parse r.text r.hybrid := by
  induction hl with
  | last r h1 h2 h3 => intro x hx; simp at hx; subst hx; exact h2
  | more r p l h1 h2 h3 h4 ih =>
    intro x hx
    rcases List.mem_cons.mp hx with rfl | hx
    · exact h2
    · exact ih x hx

end VPdf
