import Verif.Model.CopyObjects
import Verif.Spec.Copy
import Verif.Lemmas.Graph
import Verif.Lemmas.PageChange
import Verif.Lemmas.Xref
import Verif.Props.Xref
import Verif.Lemmas.ParseTerm
import Verif.Lemmas.NameTree
/-
  Lemmas about copying objects between documents.
-/
namespace VPdf
open Spec

/-! ### Walks -/

/-- What can be reached by `next`. -/
inductive Follows (next : ObjRef → List ObjRef) (q : ObjRef) : ObjRef → Prop where
  | here : Follows next q q
  | step (r r' : ObjRef) : Follows next q r → r' ∈ next r → Follows next q r'

theorem Follows.trans {next : ObjRef → List ObjRef} {q r r' : ObjRef} (h : Follows next q r) (h' : Follows next r r') :
    Follows next q r' := by
  induction h' with
  | here => exact h
  | step a b _ hb ih => exact .step a b ih hb

theorem walk_nil (next : ObjRef → List ObjRef) (f : Nat) (seen : List ObjRef) : walk next f [] seen = .ok seen := by
  cases f <;> rfl

theorem walk_cons (next : ObjRef → List ObjRef) (f : Nat) (q : ObjRef) (qs seen : List ObjRef) :
    walk next (f + 1) (q :: qs) seen =
      if q ∈ seen then walk next (f + 1) qs seen
      else (walk next f (next q) (seen ++ [q])) >>= fun seen => walk next (f + 1) qs seen := by
  rw [walk, walkEach]; rfl

theorem walk_spec (next : ObjRef → List ObjRef) (f : Nat) (qs seen seen' : List ObjRef) (h : walk next f qs seen = .ok seen') :
    (seen.Nodup → seen'.Nodup) ∧ (∀ x ∈ seen, x ∈ seen') ∧ (∀ q ∈ qs, q ∈ seen') ∧
      ∀ x ∈ seen', x ∉ seen → (∀ y ∈ next x, y ∈ seen') ∧ ∃ q ∈ qs, Follows next q x := by
  match f, qs with
  | f, [] =>
    rw [walk_nil] at h; cases h
    exact ⟨id, fun _ h => h, by simp, fun x hx hn => absurd hx hn⟩
  | 0, _ :: _ => rw [walk] at h; cases h
  | f + 1, q :: qs =>
    rw [walk_cons] at h
    split at h
    · rename_i hq
      obtain ⟨h1, h2, h3, h4⟩ := walk_spec next (f + 1) qs seen seen' h
      refine ⟨h1, h2, fun x hx => ?_, fun x hx hn => ?_⟩
      · rcases List.mem_cons.mp hx with rfl | hx
        · exact h2 x hq
        · exact h3 x hx
      · obtain ⟨a, b, hb, c⟩ := h4 x hx hn
        exact ⟨a, b, List.mem_cons_of_mem _ hb, c⟩
    · rename_i hq
      obtain ⟨mid, hm, h⟩ := bind_ok h
      obtain ⟨a1, a2, a3, a4⟩ := walk_spec next f (next q) (seen ++ [q]) mid hm
      obtain ⟨b1, b2, b3, b4⟩ := walk_spec next (f + 1) qs mid seen' h
      have hqm : q ∈ mid := a2 q (by simp)
      refine ⟨fun hd => b1 (a1 ?_), fun x hx => b2 x (a2 x (by simp [hx])), fun x hx => ?_, fun x hx hn => ?_⟩
      · rw [List.nodup_append]
        exact ⟨hd, by simp, fun a ha b hb => by rw [List.mem_singleton] at hb; subst hb; exact fun e => hq (e ▸ ha)⟩
      · rcases List.mem_cons.mp hx with rfl | hx
        · exact b2 x hqm
        · exact b3 x hx
      · by_cases hxm : x ∈ mid
        · by_cases hxq : x = q
          · subst hxq
            exact ⟨fun y hy => b2 y (a3 y hy), x, by simp, .here⟩
          · obtain ⟨c1, c2, c3, c4⟩ := a4 x hxm (by simp [hn, hxq])
            exact ⟨fun y hy => b2 y (c1 y hy), q, by simp, (Follows.step q c2 .here c3).trans c4⟩
        · obtain ⟨c1, c2, c3, c4⟩ := b4 x hx hxm
          exact ⟨c1, c2, List.mem_cons_of_mem _ c3, c4⟩
termination_by (f, qs.length)

/-- How many of the objects of `l` have not been visited. -/
def unseen (l seen : List ObjRef) : Nat := (l.filter (fun x => decide (x ∉ seen))).length

theorem unseen_mono {l seen seen' : List ObjRef} (h : ∀ x ∈ seen, x ∈ seen') : unseen l seen' ≤ unseen l seen := by
  unfold unseen
  induction l with
  | nil => simp
  | cons a l ih =>
    simp only [List.filter_cons]
    by_cases h1 : a ∈ seen
    · have h2 := h a h1
      simp only [h1, h2, not_true, decide_false, Bool.false_eq_true, if_false]; exact ih
    · by_cases h2 : a ∈ seen'
      · simp only [h1, h2, not_true, not_false_iff, decide_false, decide_true, Bool.false_eq_true, if_false, if_true,
          List.length_cons]; omega
      · simp only [h1, h2, not_false_iff, decide_true, if_true, List.length_cons]; omega

theorem unseen_add {l seen : List ObjRef} {q : ObjRef} (hq : q ∈ l) (hn : q ∉ seen) :
    unseen l (seen ++ [q]) < unseen l seen := by
  unfold unseen
  induction l with
  | nil => cases hq
  | cons a l ih =>
    have hm := unseen_mono (l := l) (seen := seen) (seen' := seen ++ [q]) (fun x hx => by simp [hx])
    unfold unseen at hm
    simp only [List.filter_cons]
    by_cases ha : a = q
    · subst ha
      have h2 : a ∈ seen ++ [a] := by simp
      simp only [hn, h2, not_true, not_false_iff, decide_false, decide_true, Bool.false_eq_true, if_false, if_true,
        List.length_cons]; omega
    · rcases List.mem_cons.mp hq with h | hq
      · exact absurd h.symm ha
      · have := ih hq
        by_cases h1 : a ∈ seen
        · have h2 : a ∈ seen ++ [q] := by simp [h1]
          simp only [h1, h2, not_true, decide_false, Bool.false_eq_true, if_false]; exact this
        · have h2 : a ∉ seen ++ [q] := by simp [h1, ha]
          simp only [h1, h2, not_false_iff, decide_true, if_true, List.length_cons]; omega

theorem walk_ends (next : ObjRef → List ObjRef) (l : List ObjRef) (hl : ∀ x ∈ l, ∀ y ∈ next x, y ∈ l) (f : Nat)
    (qs seen : List ObjRef) (hq : ∀ q ∈ qs, q ∈ l) (hf : unseen l seen < f) : ∃ seen', walk next f qs seen = .ok seen' := by
  match f, qs with
  | f, [] => exact ⟨seen, walk_nil _ _ _⟩
  | 0, _ :: _ => omega
  | f + 1, q :: qs =>
    rw [walk_cons]
    split
    · exact walk_ends next l hl (f + 1) qs seen (fun x hx => hq x (List.mem_cons_of_mem _ hx)) hf
    · rename_i hn
      have h1 := unseen_add (hq q (by simp)) hn
      obtain ⟨mid, hm⟩ := walk_ends next l hl f (next q) (seen ++ [q]) (hl q (hq q (by simp))) (by omega)
      have hs := walk_spec next f _ _ _ hm
      have h2 := unseen_mono (l := l) (seen := seen) (seen' := mid) fun x hx => hs.2.1 x (by simp [hx])
      rw [hm, ok_bind]
      exact walk_ends next l hl (f + 1) qs mid (fun x hx => hq x (List.mem_cons_of_mem _ hx)) (by omega)
termination_by (f, qs.length)

/-- A walk from some objects visits exactly what can be reached from them. -/
theorem walk_exact {next : ObjRef → List ObjRef} {f : Nat} {qs seen : List ObjRef} (h : walk next f qs [] = .ok seen) :
    seen.Nodup ∧ ∀ x, x ∈ seen ↔ ∃ q ∈ qs, Follows next q x := by
  obtain ⟨h1, _, h3, h4⟩ := walk_spec next f qs [] seen h
  refine ⟨h1 List.nodup_nil, fun x => ⟨fun hx => (h4 x hx (by simp)).2, ?_⟩⟩
  rintro ⟨q, hq, hx⟩
  induction hx with
  | here => exact h3 q hq
  | step r r' _ hr ih => exact (h4 r ih (by simp)).1 r' hr

theorem nodup_length_le {a b : List ObjRef} (ha : a.Nodup) (h : ∀ x ∈ a, x ∈ b) : a.length ≤ b.length := by
  induction a generalizing b with
  | nil => simp
  | cons x a ih =>
    have hx : x ∈ b := h x (by simp)
    rw [List.nodup_cons] at ha
    have := ih (b := b.erase x) ha.2 fun y hy => by
      rw [List.mem_erase_of_ne (fun e => ha.1 (by rw [← e]; exact hy))]
      exact h y (by simp [hy])
    rw [List.length_erase_of_mem hx] at this
    have : 0 < b.length := List.length_pos_of_mem hx
    simp only [List.length_cons]; omega

/-! ### Numbers -/

theorem contains_holds {s : Section} {n : Nat} (h : s.contains n = true) : ∃ e, Holds s e ∧ e.num = n := by
  unfold Section.contains at h
  split at h
  · rename_i e he
    have := List.mem_of_find?_eq_some he
    have h2 := List.find?_some he
    exact ⟨e, .inl this, by simpa using h2⟩
  · rename_i hn
    split at h
    · rename_i l hl
      obtain ⟨e, he⟩ := Option.isSome_iff_exists.mp h
      have h2 := List.find?_some he
      have h2 : e.num = n := by simpa using h2
      exact ⟨e, .inr ⟨l, hl, List.mem_of_find?_eq_some he, fun x hx => by rw [h2]; exact find_none.mp hn x hx⟩, h2⟩
    · cases h

theorem firstAbsent_some {c : Chain} {N : Nat} (hN : ∀ n, Occurs c n → n < N) : ∀ (f i : Nat), i ≤ N → N < i + f →
    ∃ k, firstAbsent c f i = some k ∧ k ≤ N
  | 0, i, h1, h2 => by omega
  | f + 1, i, h1, h2 => by
    rw [firstAbsent]
    split
    · exact ⟨i, rfl, h1⟩
    · rename_i hn
      have : i ≠ N := by
        rintro rfl
        apply hn
        rw [List.all_eq_true]
        intro s hs
        cases hc : s.contains i with
        | false => rfl
        | true =>
          obtain ⟨e, he, hi⟩ := contains_holds hc
          exact absurd (hN i ⟨s, hs, e, he, hi⟩) (by omega)
      exact firstAbsent_some hN f (i + 1) (by omega) (by omega)

/-- One allocation from a file with room. -/
theorem allocate_roomy {a : Alloc} {k : Nat} (h : Roomy a (k + 1)) :
    ∃ e a', a.allocate = .ok (e, a') ∧ e.gen = 0 ∧ ¬ Occurs a.chain e.num ∧ Roomy a' k ∧
      ∀ n, Occurs a'.chain n ↔ Occurs a.chain n ∨ n = e.num := by
  obtain ⟨h1, h2, N, h3, h4, h5⟩ := h
  obtain ⟨i, hi, hiN⟩ := firstAbsent_some h4 (2 ^ 64 - 1 - a.next) a.next h3 (by omega)
  obtain ⟨s, rest, hc⟩ : ∃ s rest, a.chain = s :: rest := by
    cases hx : a.chain with
    | nil => exact absurd hx h1
    | cons s r => exact ⟨s, r, rfl⟩
  have hws := h2 s (by rw [hc]; simp)
  obtain ⟨l', e1, e2, e3⟩ := add_spec hws.1 ⟨i, 0, .used (-1)⟩
  have hadd : s.add ⟨i, 0, .used (-1)⟩ = .ok { s with entries := l' } := by
    rw [Section.add, e1]
    simp only [Bool.and_false, Bool.false_eq_true, if_false]; rfl
  have hfresh := (firstAbsent_spec _ _ _ _ hi).2.2.1
  have hno : ¬ Occurs a.chain i := fun ho => by
    obtain ⟨t, ht, hct⟩ := occurs_contains ho
    rw [hfresh t ht] at hct; cases hct
  have hocc : ∀ n, Occurs ({ s with entries := l' } :: rest) n ↔ Occurs a.chain n ∨ n = i := by
    intro n
    have mem : ∀ {l : EntrySet} {n : Nat}, (∃ x ∈ l, x.num = n) ↔ ∃ x, EntrySet.find n l = some x := by
      intro l n
      constructor
      · rintro ⟨x, hx, hn⟩
        cases hf : EntrySet.find n l with
        | some y => exact ⟨y, rfl⟩
        | none => exact absurd hn (find_none.mp hf x hx)
      · rintro ⟨x, hx⟩
        exact ⟨x, List.mem_of_find?_eq_some hx, by simpa using List.find?_some hx⟩
    have sec : ∀ (t : Section) (n : Nat), (∃ e, Holds t e ∧ e.num = n) ↔
        (∃ x, EntrySet.find n t.entries = some x) ∨ ∃ l, t.hybrid = some l ∧ ∃ x ∈ l, x.num = n := by
      intro t n
      constructor
      · rintro ⟨e, he | ⟨l, hl, hel, _⟩, hn⟩
        · exact .inl (mem.mp ⟨e, he, hn⟩)
        · exact .inr ⟨l, hl, e, hel, hn⟩
      · rintro (hx | ⟨l, hl, x, hx, hn⟩)
        · obtain ⟨e, he, hn⟩ := mem.mpr hx
          exact ⟨e, .inl he, hn⟩
        · by_cases hy : ∃ y ∈ t.entries, y.num = n
          · obtain ⟨y, hy, hyn⟩ := hy
            exact ⟨y, .inl hy, hyn⟩
          · exact ⟨x, .inr ⟨l, hl, hx, fun y hyy hyn => hy ⟨y, hyy, by rw [hyn, hn]⟩⟩, hn⟩
    have head : (∃ e, Holds { s with entries := l' } e ∧ e.num = n) ↔ (∃ e, Holds s e ∧ e.num = n) ∨ n = i := by
      rw [sec, sec]
      dsimp only
      rw [e3]
      by_cases hn : n = i
      · subst hn; simp
      · simp [hn]
    unfold Occurs
    rw [hc]
    simp only [List.mem_cons, exists_eq_or_imp, head]
    constructor
    · rintro ((h | h) | h)
      · exact .inl (.inl h)
      · exact .inr h
      · exact .inl (.inr h)
    · rintro ((h | h) | h)
      · exact .inl (.inl h)
      · exact .inr h
      · exact .inl (.inr h)
  refine ⟨⟨i, 0, .used (-1)⟩, ⟨{ s with entries := l' } :: rest, i + 1⟩, ?_, rfl, hno, ⟨by simp, ?_, max N (i + 1), ?_, ?_, ?_⟩, hocc⟩
  · rw [Alloc.allocate, hi]
    dsimp only
    rw [hc]
    dsimp only
    rw [hadd]; rfl
  · intro t ht
    rcases List.mem_cons.mp ht with rfl | ht
    · exact ⟨e2, hws.2⟩
    · exact h2 t (by rw [hc]; simp [ht])
  · dsimp only; omega
  · intro n hn
    rcases (hocc n).mp hn with hn | rfl
    · have := h4 n hn; omega
    · omega
  · omega

/-- Allocation of numbers for several objects. -/
theorem allocateAll_spec : ∀ (qs : List ObjRef) (a : Alloc) (k : Nat), Roomy a (k + qs.length) →
    ∃ m a', allocateAll qs a = .ok (m, a') ∧ m.map (·.1) = qs ∧ (m.map (·.2)).Nodup ∧
      (∀ x ∈ m, ¬ Occurs a.chain x.2.1) ∧ Roomy a' k ∧
      ∀ n, Occurs a'.chain n ↔ Occurs a.chain n ∨ ∃ x ∈ m, x.2.1 = n
  | [], a, k, h => ⟨[], a, rfl, rfl, by simp, by simp, h, by simp⟩
  | q :: qs, a, k, h => by
    obtain ⟨e, a1, h1, h2, h3, h4, h5⟩ := allocate_roomy (k := k + qs.length) h
    obtain ⟨m, a', g1, g2, g3, g4, g5, g6⟩ := allocateAll_spec qs a1 k h4
    refine ⟨(q, (e.num, e.gen)) :: m, a', ?_, by simp [g2], ?_, ?_, g5, fun n => ?_⟩
    · rw [allocateAll, h1, ok_bind]; dsimp only; rw [g1]; rfl
    · rw [List.map_cons, List.nodup_cons]
      refine ⟨fun hm => ?_, g3⟩
      obtain ⟨x, hx, hxe⟩ := List.mem_map.mp hm
      apply g4 x hx
      rw [h5, hxe]; exact .inr rfl
    · intro x hx
      rcases List.mem_cons.mp hx with rfl | hx
      · exact h3
      · exact fun ho => g4 x hx ((h5 _).mpr (.inl ho))
    · rw [g6, h5]
      simp only [List.mem_cons, exists_eq_or_imp]
      constructor
      · rintro ((h | h) | h)
        · exact .inl h
        · exact .inr (.inl h.symm)
        · exact .inr (.inr h)
      · rintro (h | h | h)
        · exact .inl (.inl h)
        · exact .inl (.inr h.symm)
        · exact .inr h

/-! ### The map -/

theorem copyOf_mem {m : List (ObjRef × ObjRef)} {r c : ObjRef} (h : copyOf m r = some c) : (r, c) ∈ m := by
  unfold copyOf at h
  obtain ⟨x, hx, rfl⟩ := Option.map_eq_some_iff.mp h
  have h1 := List.mem_of_find?_eq_some hx
  have h2 : x.1 = r := by simpa using List.find?_some hx
  rw [← h2]; exact h1

theorem copyOf_some {m : List (ObjRef × ObjRef)} {r : ObjRef} (h : r ∈ m.map (·.1)) : ∃ c, copyOf m r = some c := by
  unfold copyOf
  cases hf : m.find? (·.1 == r) with
  | some x => exact ⟨x.2, rfl⟩
  | none =>
    obtain ⟨x, hx, rfl⟩ := List.mem_map.mp h
    have := List.find?_eq_none.mp hf x hx
    simp at this

theorem copyOf_eq {m : List (ObjRef × ObjRef)} (hd : (m.map (·.1)).Nodup) {r c : ObjRef} (h : (r, c) ∈ m) :
    copyOf m r = some c := by
  induction m with
  | nil => cases h
  | cons x m ih =>
    rw [List.map_cons, List.nodup_cons] at hd
    unfold copyOf
    rw [List.find?_cons]
    by_cases hx : x.1 = r
    · rw [show (x.1 == r) = true by simpa using hx]
      rcases List.mem_cons.mp h with rfl | h
      · rfl
      · exact absurd (List.mem_map.mpr ⟨_, h, hx.symm⟩) hd.1
    · rw [show (x.1 == r) = false by simpa using hx]
      rcases List.mem_cons.mp h with rfl | h
      · exact absurd rfl hx
      · exact ih hd.2 h

theorem withClones_copy {src dst : SStore} {m : List (ObjRef × ObjRef)} (hd : (m.map (·.2)).Nodup) {o c : ObjRef}
    (h : (o, c) ∈ m) : withClones src m dst c = src o := by
  unfold withClones
  have : m.find? (·.2 == c) = some (o, c) := by
    induction m with
    | nil => cases h
    | cons x m ih =>
      rw [List.map_cons, List.nodup_cons] at hd
      rw [List.find?_cons]
      by_cases hx : x.2 = c
      · rw [show (x.2 == c) = true by simpa using hx]
        rcases List.mem_cons.mp h with rfl | h
        · rfl
        · exact absurd (List.mem_map.mpr ⟨_, h, hx.symm⟩) hd.1
      · rw [show (x.2 == c) = false by simpa using hx]
        rcases List.mem_cons.mp h with rfl | h
        · exact absurd rfl hx
        · exact ih hd.2 h
  rw [this]

theorem withClones_other {src dst : SStore} {m : List (ObjRef × ObjRef)} {r : ObjRef} (h : r ∉ m.map (·.2)) :
    withClones src m dst r = dst r := by
  unfold withClones
  have : m.find? (·.2 == r) = none := by
    rw [List.find?_eq_none]
    intro x hx he
    exact h (List.mem_map.mpr ⟨x, hx, by simpa using he⟩)
  rw [this]

theorem absentAt_iff {s : SStore} {r : ObjRef} : absentAt s r = false ↔ DocObjects.Has s r := by
  unfold absentAt DocObjects.Has
  split
  · rename_i h; simp [h]
  · rename_i h
    exact ⟨fun _ e => h e, fun _ => rfl⟩

theorem follows_iff {s : SStore} {q x : ObjRef} : Follows (fun r => refsS (s r)) q x ↔ Leads s q x := by
  constructor
  · intro h
    induction h with
    | here => exact .here
    | step r r' _ hr ih => exact .next r r' ih ((refsS_iff _ _).mp hr)
  · intro h
    induction h with
    | here => exact .here
    | next r r' _ hr ih => exact .step r r' ih ((refsS_iff _ _).mpr hr)

/-! ### Copying one object with everything behind it -/

/-- What `deepCopy` does when no reference behind `q` is dangling. -/
theorem deepCopy_spec {src : SStore} {dst : CopyTarget} {q : ObjRef} {l : List ObjRef} {f k : Nat}
    (hl : ∀ r, DocObjects.Has src r → r ∈ l) (hc : ∀ r, Leads src q r → DocObjects.Has src r) (hr : Roomy dst.alloc (k + l.length))
    (hd : Listed dst.objs dst.alloc.chain) (hf : l.length < f) :
    ∃ φ : ObjRef → ObjRef, ∃ dst', deepCopy src f dst q = .ok (φ q, dst') ∧
      (∀ r, Leads src q r → dst'.objs (φ r) = mapRefsS φ (src r) ∧ ¬ Occurs dst.alloc.chain (φ r).1) ∧
      (∀ r r', Leads src q r → Leads src q r' → φ r = φ r' → r = r') ∧
      (∀ c, (∀ r, Leads src q r → φ r ≠ c) → dst'.objs c = dst.objs c) ∧
      Roomy dst'.alloc k ∧ Listed dst'.objs dst'.alloc.chain ∧
      ∀ n, Occurs dst.alloc.chain n → Occurs dst'.alloc.chain n := by
  -- the first walk
  have hun : ∀ l : List ObjRef, unseen l [] ≤ l.length := fun l => List.length_filter_le _ _
  obtain ⟨seen, hs⟩ : ∃ seen, walk (fun r => refsS (src r)) f [q] [] = .ok seen := by
    -- restrict to what can be reached
    classical
    let l' := l.filter (fun r => decide (Leads src q r))
    have hmem : ∀ x, x ∈ l' ↔ Leads src q x := fun x => by
      rw [List.mem_filter]
      exact ⟨fun h => by simpa using h.2, fun h => ⟨hl x (hc x h), by simpa using h⟩⟩
    refine walk_ends _ l' (fun x hx y hy => (hmem y).mpr (.next x y ((hmem x).mp hx) ((refsS_iff _ _).mp hy))) f [q] []
      (fun x hx => ?_) ?_
    · rw [List.mem_singleton.mp hx]; exact (hmem q).mpr .here
    · have h1 := hun l'
      have h2 : l'.length ≤ l.length := List.length_filter_le _ _
      omega
  obtain ⟨hnd, hreach⟩ := walk_exact hs
  have hseen : ∀ x, x ∈ seen ↔ Leads src q x := fun x => by
    rw [hreach, ← follows_iff]; simp
  have hfil : seen.filter (fun r => !absentAt src r) = seen := by
    rw [List.filter_eq_self]
    intro x hx
    rw [absentAt_iff.mpr (hc x ((hseen x).mp hx))]; rfl
  have hlen : seen.length ≤ l.length := nodup_length_le hnd fun x hx => hl x (hc x ((hseen x).mp hx))
  have hr' : Roomy dst.alloc (k + (l.length - seen.length) + seen.length) := by
    rw [Nat.add_assoc, Nat.sub_add_cancel hlen]; exact hr
  obtain ⟨m, alloc, m1, m2, m3, m4, m5, m6⟩ := allocateAll_spec seen dst.alloc (k + (l.length - seen.length)) hr'
  have hm1 : (m.map (·.1)).Nodup := by rw [m2]; exact hnd
  have hφ : ∀ x, Leads src q x → (x, newReference m x) ∈ m := fun x hx => by
    obtain ⟨c, hcx⟩ := copyOf_some (m := m) (r := x) (by rw [m2]; exact (hseen x).mpr hx)
    unfold newReference
    rw [hcx]
    exact copyOf_mem hcx
  have hback : ∀ c ∈ m.map (·.2), ∃ x, Leads src q x ∧ newReference m x = c := fun c hcm => by
    obtain ⟨⟨x, c'⟩, hx, rfl⟩ := List.mem_map.mp hcm
    refine ⟨x, (hseen x).mp (by rw [← m2]; exact List.mem_map.mpr ⟨_, hx, rfl⟩), ?_⟩
    unfold newReference
    rw [copyOf_eq hm1 hx]; rfl
  have hclone : ∀ x, Leads src q x → withClones src m dst.objs (newReference m x) = src x := fun x hx =>
    withClones_copy m3 (hφ x hx)
  -- the second walk
  have hnext : ∀ c ∈ m.map (·.2), ∀ y ∈ fixNext m (withClones src m dst.objs) c, y ∈ m.map (·.2) := by
    intro c hcm y hy
    obtain ⟨x, hx, rfl⟩ := hback c hcm
    unfold fixNext at hy
    rw [hclone x hx] at hy
    obtain ⟨z, hz, rfl⟩ := List.mem_map.mp hy
    exact List.mem_map.mpr ⟨_, hφ z (.next x z hx ((refsS_iff _ _).mp hz)), rfl⟩
  obtain ⟨touched, ht⟩ := walk_ends (fixNext m (withClones src m dst.objs)) (m.map (·.2)) hnext f (m.map (·.2)) []
    (fun _ h => h) (by
      have h1 := hun (m.map (·.2))
      have h2 : (m.map (·.2)).length = seen.length := by rw [List.length_map, ← m2, List.length_map]
      omega)
  have htouch : ∀ c, c ∈ touched ↔ c ∈ m.map (·.2) := by
    intro c
    rw [(walk_exact ht).2]
    constructor
    · rintro ⟨a, ha, hac⟩
      induction hac with
      | here => exact ha
      | step r r' _ hr ih => exact hnext r ih r' hr
    · intro h; exact ⟨c, h, .here⟩
  refine ⟨newReference m, ⟨fun r => if r ∈ touched then mapRefsS (newReference m) (withClones src m dst.objs r) else
      withClones src m dst.objs r, alloc⟩, ?_, ?_, ?_, ?_, ?_, ?_, ?_⟩
  · unfold deepCopy
    rw [hs, ok_bind, hfil, m1, ok_bind]
    dsimp only
    rw [ht, ok_bind, copyOf_eq hm1 (hφ q .here)]
    rfl
  · intro r hr
    have hm : newReference m r ∈ m.map (·.2) := List.mem_map.mpr ⟨_, hφ r hr, rfl⟩
    dsimp only
    rw [if_pos ((htouch _).mpr hm), hclone r hr]
    exact ⟨rfl, m4 _ (hφ r hr)⟩
  · intro r r' hr hr' e
    have h1 := hφ r hr
    have h2 := hφ r' hr'
    rw [← e] at h2
    have : ∀ {m : List (ObjRef × ObjRef)}, (m.map (·.2)).Nodup → ∀ {a b c : ObjRef}, (a, c) ∈ m → (b, c) ∈ m → a = b := by
      intro m hm
      induction m with
      | nil => intro a b c h; cases h
      | cons x m ih =>
        intro a b c ha hb
        rw [List.map_cons, List.nodup_cons] at hm
        rcases List.mem_cons.mp ha with ha | ha
        · rcases List.mem_cons.mp hb with hb | hb
          · rw [← ha] at hb
            exact (Prod.mk.inj hb).1.symm
          · rw [← ha] at hm
            exact absurd (List.mem_map.mpr ⟨(b, c), hb, rfl⟩ : c ∈ m.map (·.2)) hm.1
        · rcases List.mem_cons.mp hb with hb | hb
          · rw [← hb] at hm
            exact absurd (List.mem_map.mpr ⟨(a, c), ha, rfl⟩ : c ∈ m.map (·.2)) hm.1
          · exact ih hm.2 ha hb
    exact this m3 h1 h2
  · intro c hcn
    have hm : c ∉ m.map (·.2) := fun h => by
      obtain ⟨x, hx, e⟩ := hback c h
      exact hcn x hx e
    dsimp only
    rw [if_neg (fun h => hm ((htouch c).mp h)), withClones_other hm]
  · obtain ⟨a1, a2, N, a3, a4, a5⟩ := m5
    exact ⟨a1, a2, N, a3, a4, by omega⟩
  · intro r hr
    dsimp only at hr ⊢
    rw [m6]
    by_cases hm : r ∈ m.map (·.2)
    · obtain ⟨x, hx, e⟩ := List.mem_map.mp hm
      exact .inr ⟨x, hx, by rw [e]⟩
    · left
      apply hd
      unfold DocObjects.Has at hr ⊢
      dsimp only at hr
      rwa [if_neg (fun h => hm ((htouch r).mp h)), withClones_other hm] at hr
  · intro n hn
    exact (m6 n).mpr (.inl hn)

/-! ### What is seen -/

theorem look_rename {s s' : SStore} {φ : ObjRef → ObjRef} (R : ObjRef → Prop)
    (hR : ∀ r, R r → ∀ q ∈ refsS (s r), R q) (h : ∀ r, R r → s' (φ r) = mapRefsS φ (s r)) :
    ∀ k r, R r → look s k r = look s' k (φ r)
  | 0, _, _ => rfl
  | k + 1, r, hr => by
    rw [look, look, h r hr, treeOfS_map]
    exact treeOfS_congr _ _ _ _ fun q hq => look_rename R hR h k q (hR r hr q hq)

theorem withoutParents_null {s : SStore} {r : ObjRef} : DocObjects.Has (withoutParents s) r ↔ DocObjects.Has s r := by
  unfold withoutParents DocObjects.Has
  dsimp only
  split
  · rename_i d h
    rw [h]; simp
  · rfl

theorem withoutParents_refs {s : SStore} {r q : ObjRef} (h : q ∈ refsS (withoutParents s r)) : q ∈ refsS (s r) := by
  unfold withoutParents at h
  split at h
  · rename_i d hd
    rw [hd]
    rw [refsS_iff] at h ⊢
    unfold MentionsS at h ⊢
    dsimp only at h ⊢
    cases h with
    | dict _ k o hm ho =>
      refine .dict _ k o ?_ ho
      split at hm
      · exact (List.mem_filter.mp hm).1
      · exact hm
  · exact h

theorem mapRefsEntries_filter (φ : ObjRef → ObjRef) (k : Bytes) : ∀ d : Dict,
    mapRefsEntries φ (d.filter fun e => e.1 != k) = (mapRefsEntries φ d).filter fun e => e.1 != k
  | [] => rfl
  | (k', o) :: d => by
    rw [mapRefsEntries, List.filter_cons, List.filter_cons]
    dsimp only
    split
    · rw [mapRefsEntries, mapRefsEntries_filter φ k d]
    · exact mapRefsEntries_filter φ k d

theorem mapFind_mapRefs (φ : ObjRef → ObjRef) (k : Bytes) : ∀ d : Dict,
    mapFind k (mapRefsEntries φ d) = (mapFind k d).map (mapRefs φ)
  | [] => rfl
  | (k', o) :: d => by
    rw [mapRefsEntries, mapFind, mapFind]
    split
    · rfl
    · exact mapFind_mapRefs φ k d

theorem isPage_map (φ : ObjRef → ObjRef) (d : Dict) : isPage (mapRefsEntries φ d) = isPage d := by
  unfold isPage
  rw [mapFind_mapRefs]
  cases mapFind (b! "Type") d with
  | none => rfl
  | some o => cases o <;> rfl

theorem isPage_of {d : Dict} (h : mapFind (b! "Type") d = some (.name (b! "Page"))) : isPage d = true := by
  unfold isPage; rw [h]; decide

/-- An object, without the Parent entry when it is a page. -/
def noParent : SObj → SObj
  | .direct (.dict d) => .direct (.dict (if isPage d then d.filter fun e => e.1 != b! "Parent" else d))
  | o => o

theorem withoutParents_eq (s : SStore) (r : ObjRef) : withoutParents s r = noParent (s r) := by
  unfold withoutParents noParent
  split <;> split <;> simp_all

theorem noParent_map (φ : ObjRef → ObjRef) (o : SObj) : noParent (mapRefsS φ o) = mapRefsS φ (noParent o) := by
  cases o with
  | stream d b => rfl
  | direct o =>
    cases o with
    | dict d =>
      show noParent (.direct (.dict (mapRefsEntries φ d))) =
        .direct (mapRefs φ (.dict (if isPage d then d.filter fun e => e.1 != b! "Parent" else d)))
      rw [mapRefs, noParent, isPage_map]
      split
      · rw [mapRefsEntries_filter]
      · rfl
    | _ => rfl

theorem filter_mapInsert {k : Bytes} {v : Obj} : ∀ d : Dict,
    (mapInsert k v d).filter (fun e => e.1 != k) = d.filter (fun e => e.1 != k)
  | [] => by simp [mapInsert]
  | (k', v') :: d => by
    rw [mapInsert]
    split
    · simp
    · split
      · rw [List.filter_cons, List.filter_cons, filter_mapInsert d]
      · rfl

/-- The copy of `p` at `c` in the document `D`: a renaming of everything that is seen from `p` on, Parent entries aside.  The
objects of the copy are not among `ns`. -/
def FaithfulCopy (src D : SStore) (ns : List ObjRef) (p c : ObjRef) : Prop :=
  ∃ φ : ObjRef → ObjRef, ∃ R : ObjRef → Prop, R p ∧ φ p = c ∧ (∀ r, R r → ∀ q ∈ refsS (noParent (src r)), R q) ∧
    ∀ r, R r → φ r ∉ ns ∧ DocObjects.Has D (φ r) ∧ noParent (D (φ r)) = mapRefsS φ (noParent (src r))

theorem FaithfulCopy.looks {src D : SStore} {ns : List ObjRef} {p c : ObjRef} (h : FaithfulCopy src D ns p c) :
    LooksLike (withoutParents src) p (withoutParents D) c := by
  obtain ⟨φ, R, h1, rfl, h3, h4⟩ := h
  intro k
  exact look_rename R (fun r hr q hq => h3 r hr q (by rwa [withoutParents_eq] at hq))
    (fun r hr => by rw [withoutParents_eq, withoutParents_eq]; exact (h4 r hr).2.2) k p h1

theorem FaithfulCopy.keep {src D D' : SStore} {ns : List ObjRef} {p c : ObjRef} (h : FaithfulCopy src D ns p c)
    (hk : ∀ r, r ∉ ns → DocObjects.Has D r → D' r = D r) : FaithfulCopy src D' ns p c := by
  obtain ⟨φ, R, h1, h2, h3, h4⟩ := h
  refine ⟨φ, R, h1, h2, h3, fun r hr => ?_⟩
  obtain ⟨a, b, c⟩ := h4 r hr
  have e := hk _ a b
  exact ⟨a, by unfold DocObjects.Has at b ⊢; rwa [e], by rw [e]; exact c⟩

/-! ### One page -/

theorem pageView_dict {s : SStore} {r : ObjRef} {d : Dict} (h : pageView s r = .dict d) : s r = .direct (.dict d) := by
  unfold pageView at h
  split at h
  · rename_i o ho
    rw [ho, h]
  · cases h

theorem pageView_direct {s : SStore} {r : ObjRef} {o : Obj} (h : s r = .direct o) : pageView s r = o := by
  unfold pageView; rw [h]

mutual
theorem shaped_nodes {s : PStore} (t : PageTree) (h : Shaped s t) : ∀ r ∈ t.nodes, ∃ d, s r = .dict d ∧
    mapFind (b! "Type") d = some (.name (b! "Pages")) := by
  match t with
  | .page r => intro q hq; cases hq
  | .node r kids =>
    rw [Shaped] at h
    obtain ⟨⟨d, c, h1, h2, _⟩, h5⟩ := h
    intro q hq
    rw [PageTree.nodes] at hq
    rcases List.mem_cons.mp hq with rfl | hq
    · exact ⟨d, h1, h2⟩
    · exact shapedAll_nodes kids h5 q hq
theorem shapedAll_nodes {s : PStore} (ts : List PageTree) (h : ShapedAll s ts) : ∀ r ∈ nodesOf ts, ∃ d, s r = .dict d ∧
    mapFind (b! "Type") d = some (.name (b! "Pages")) := by
  match ts with
  | [] => intro q hq; cases hq
  | t :: ts =>
    rw [ShapedAll] at h
    intro q hq
    rw [nodesOf, List.mem_append] at hq
    rcases hq with hq | hq
    · exact shaped_nodes t h.1 q hq
    · exact shapedAll_nodes ts h.2 q hq
end

/-- One page of another document appended. -/
theorem appendForeignPage_spec {src : SStore} {dst : CopyTarget} {root p : ObjRef} {ts : List PageTree} {l : List ObjRef}
    {f k : Nat} {d : Dict} (hl : ∀ r, DocObjects.Has src r → r ∈ l) (hc : Complete src)
    (hp : src p = .direct (.dict d)) (hpt : mapFind (b! "Type") d = some (.name (b! "Page")))
    (ht : Shaped (pageView dst.objs) (.node root ts)) (hnd : (PageTree.node root ts).nodes.Nodup)
    (hr : Roomy dst.alloc (k + l.length)) (hd : Listed dst.objs dst.alloc.chain) (hf : l.length < f)
    (hf2 : depthOf ts + 1 < f) (hsize : ts.length < 2 ^ 64 - 1) (hpages : (pagesOf ts).length + 1 < 2 ^ 63) :
    ∃ dst' c, appendForeignPage f src dst root p = .ok (c, dropParent src p d, dst') ∧
      Shaped (pageView dst'.objs) (.node root (ts ++ [.page c])) ∧
      StoredTree (pageView dst'.objs) (.node root (ts ++ [.page c])) ∧
      FaithfulCopy src dst'.objs (PageTree.node root ts).nodes p c ∧ ¬ DocObjects.Has dst.objs c ∧
      (∀ r, r ∉ (PageTree.node root ts).nodes → DocObjects.Has dst.objs r → dst'.objs r = dst.objs r) ∧
      Roomy dst'.alloc k ∧ Listed dst'.objs dst'.alloc.chain := by
  have hsrc : ∀ r, DocObjects.Has (dropParent src p d) r ↔ DocObjects.Has src r := fun r => by
    unfold dropParent DocObjects.Has
    dsimp only
    split
    · rename_i e; rw [e, hp]; simp
    · rfl
  have hnp : ∀ r, noParent (dropParent src p d r) = noParent (src r) := fun r => by
    unfold dropParent
    split
    · rename_i e
      rw [e, hp]
      have h1 : isPage (mapErase (b! "Parent") d) = true := isPage_of (by rw [mapFind_erase, if_neg (by decide)]; exact hpt)
      simp only [noParent, h1, isPage_of hpt, if_true]
      simp only [mapErase, List.filter_filter, Bool.and_self]
    · rfl
  have hmen : ∀ r q, MentionsS q (dropParent src p d r) → MentionsS q (src r) := fun r q h => by
    unfold dropParent at h
    split at h
    · rename_i e
      rw [e, hp]
      unfold MentionsS at h ⊢
      dsimp only at h ⊢
      cases h with
      | dict _ k o hm ho => exact .dict _ k o (List.mem_filter.mp hm).1 ho
    · exact h
  have hlead : ∀ r, Leads (dropParent src p d) p r → DocObjects.Has (dropParent src p d) r := by
    intro r hr
    rw [hsrc]
    cases hr with
    | here => unfold DocObjects.Has; rw [hp]; simp
    | next a b _ hb => exact hc a r (hmen a r hb)
  obtain ⟨φ, dst1, c1, c2, c3, c4, c5, c6, c7⟩ := deepCopy_spec (src := dropParent src p d) (dst := dst) (q := p) (l := l) (f := f)
    (k := k) (fun r hr => hl r ((hsrc r).mp hr)) hlead hr hd hf
  have hfresh : ∀ r, Leads (dropParent src p d) p r → ¬ DocObjects.Has dst.objs (φ r) := fun r hr h => (c2 r hr).2 (hd _ h)
  have hold : ∀ r, DocObjects.Has dst.objs r → dst1.objs r = dst.objs r := fun r h =>
    c4 r fun x hx e => hfresh x hx (by rw [e]; exact h)
  have hview : ∀ r d', pageView dst.objs r = .dict d' → pageView dst1.objs r = .dict d' := fun r d' h => by
    have := pageView_dict h
    apply pageView_direct
    rw [hold r (by unfold DocObjects.Has; rw [this]; simp), this]
  have hsame : ∀ r, SameNode (pageView dst.objs) (pageView dst1.objs) r := fun r d' h =>
    ⟨d', hview r d' h, rfl, rfl, fun c hc => ⟨c, hc⟩⟩
  have ht1 : Shaped (pageView dst1.objs) (.node root ts) := shaped_sim _ ht (fun r _ => hsame r) (fun r _ => hsame r)
  -- the copy of the page
  have hcopy : dst1.objs (φ p) = .direct (.dict (mapRefsEntries φ (mapErase (b! "Parent") d))) := by
    rw [(c2 p .here).1]
    unfold dropParent
    rw [if_pos rfl]
    rfl
  have htype : mapFind (b! "Type") (mapRefsEntries φ (mapErase (b! "Parent") d)) = some (.name (b! "Page")) := by
    rw [mapFind_mapRefs, mapFind_erase, if_neg (by decide), hpt]; rfl
  have hpc : pageView dst1.objs (φ p) = .dict (mapRefsEntries φ (mapErase (b! "Parent") d)) := pageView_direct hcopy
  have hshape : Shaped (pageView dst1.objs) (.page (φ p)) := ⟨_, hpc, htype⟩
  have hnode : ∀ r, Leads (dropParent src p d) p r → φ r ∉ (PageTree.node root ts).nodes := fun r hr hn => by
    obtain ⟨d', h1, _⟩ := shaped_nodes _ ht _ hn
    exact hfresh r hr (by unfold DocObjects.Has; rw [pageView_dict h1]; simp)
  obtain ⟨s', p1, p2, p3, _, p5, p6⟩ := insertPage_full (f := f) (i := ts.length + 1) ht1 hnd hshape (by omega) (by omega) hsize hf2 hpages
  have hp6 := p6 _ hpc (hnode p .here)
  have happ : ts.insertIdx (ts.length + 1 - 1) (.page (φ p)) = ts ++ [.page (φ p)] := by
    rw [Nat.add_sub_cancel, List.insertIdx_length_self]
  rw [happ] at p2 p3
  -- the view of the new objects
  have hput : ∀ r, pageView (putView dst1.objs s') r = match dst1.objs r with | .direct _ => s' r | .stream _ _ => .null := fun r => by
    unfold pageView putView
    cases dst1.objs r <;> rfl
  have hstream : ∀ r, (match dst1.objs r with | .direct _ => s' r | .stream _ _ => .null) = s' r := fun r => by
    cases hx : dst1.objs r with
    | direct o => rfl
    | stream dd b =>
      have hv : pageView dst1.objs r = .null := by unfold pageView; rw [hx]
      have h1 : r ∉ (PageTree.node root ts).nodes := fun hn => by
        obtain ⟨d', h1, _⟩ := shaped_nodes _ ht1 _ hn
        rw [hv] at h1; cases h1
      have h2 : r ≠ φ p := fun e => by rw [e, hpc] at hv; cases hv
      show Obj.null = s' r
      rw [p5 r h1 h2, hv]
  have hview' : pageView (putView dst1.objs s') = s' := by
    funext r; rw [hput, hstream]
  have hframe : ∀ r, r ∉ (PageTree.node root ts).nodes → r ≠ φ p → putView dst1.objs s' r = dst1.objs r := fun r h1 h2 => by
    unfold putView
    cases hx : dst1.objs r with
    | stream _ _ => rfl
    | direct o =>
      dsimp only
      rw [p5 r h1 h2, pageView_direct hx]
  have hput2 : putView dst1.objs s' (φ p) = .direct (.dict (mapInsert (b! "Parent") (.ref root.1 root.2)
      (mapErase (b! "Parent") (mapRefsEntries φ (mapErase (b! "Parent") d))))) := by
    unfold putView
    rw [hcopy]
    dsimp only
    rw [hp6]
  refine ⟨⟨putView dst1.objs s', dst1.alloc⟩, φ p, ?_, ?_, ?_, ?_, hfresh p .here, ?_, c5, ?_⟩
  · unfold appendForeignPage
    rw [dictAt_eq (pageView_direct hp), ok_bind]
    dsimp only
    rw [c1, ok_bind]
    dsimp only
    have : pageObject (pageView dst1.objs) (φ p) = .ok (mapRefsEntries φ (mapErase (b! "Parent") d)) := by
      unfold pageObject
      rw [dictAt_eq hpc, ok_bind]
      unfold treeEntry
      rw [htype]
      rfl
    rw [this, ok_bind, appendPage_eq ht1 hsize, p1]
    rfl
  · dsimp only; rw [hview']; exact p2
  · dsimp only; rw [hview']; exact p3
  · refine ⟨φ, Leads (dropParent src p d) p, .here, rfl, fun r hr q hq => ?_, fun r hr => ⟨hnode r hr, ?_, ?_⟩⟩
    · rw [← hnp, ← withoutParents_eq] at hq
      exact .next r q hr ((refsS_iff _ _).mp (withoutParents_refs hq))
    · by_cases hrp : r = p
      · subst hrp
        unfold DocObjects.Has
        dsimp only
        rw [hput2]; simp
      · dsimp only
        unfold DocObjects.Has
        rw [hframe _ (hnode r hr) (fun e => hrp (c3 r p hr .here e)), (c2 r hr).1]
        have := hlead r hr
        unfold DocObjects.Has at this
        intro e
        apply this
        revert e
        cases dropParent src p d r with
        | stream _ _ => intro e; cases e
        | direct o =>
          cases o <;> intro e <;> first | rfl | cases e
    · dsimp only
      by_cases hrp : r = p
      · subst hrp
        rw [hput2, ← hnp, ← noParent_map]
        show noParent _ = noParent (mapRefsS φ (dropParent src r d r))
        rw [← (c2 r hr).1, hcopy]
        have h1 := isPage_of htype
        have h2 : isPage (mapInsert (b! "Parent") (.ref root.1 root.2)
            (mapErase (b! "Parent") (mapRefsEntries φ (mapErase (b! "Parent") d)))) = true :=
          isPage_of (by rw [mapFind_insert_ne (by decide), mapFind_erase, if_neg (by decide)]; exact htype)
        simp only [noParent, h1, h2, if_true, filter_mapInsert]
        rw [mapErase, List.filter_filter]
        simp only [Bool.and_self]
      · rw [hframe _ (hnode r hr) (fun e => hrp (c3 r p hr .here e)), (c2 r hr).1, noParent_map, hnp]
  · intro r h1 h2
    dsimp only
    rw [hframe r h1 (fun e => hfresh p .here (e ▸ h2)), hold r h2]
  · intro r hr
    dsimp only at hr ⊢
    apply c6
    unfold DocObjects.Has at hr ⊢
    intro e
    by_cases hn : r ∈ (PageTree.node root ts).nodes
    · obtain ⟨d', h1, _⟩ := shaped_nodes _ ht1 _ hn
      rw [pageView_direct e] at h1; cases h1
    · by_cases hq : r = φ p
      · rw [hq, hcopy] at e; cases e
      · rw [hframe r hn hq] at hr
        exact hr e

/-! ### All pages -/

/-- Only Parent entries differ. -/
def SameButParent (s s' : PStore) : Prop :=
  ∀ r, (∃ d d', s r = .dict d ∧ s' r = .dict d' ∧ ∀ k, k ≠ b! "Parent" → mapFind k d' = mapFind k d) ∨
    ((∀ d, s r ≠ .dict d) ∧ s' r = s r)

theorem SameButParent.dict {s s' : PStore} (h : SameButParent s s') {r : ObjRef} {d : Dict} (hd : s r = .dict d) :
    ∃ d', s' r = .dict d' ∧ ∀ k, k ≠ b! "Parent" → mapFind k d' = mapFind k d := by
  rcases h r with ⟨d1, d', h1, h2, h3⟩ | ⟨h1, _⟩
  · rw [hd] at h1; cases h1; exact ⟨d', h2, h3⟩
  · exact absurd hd (h1 d)

theorem SameButParent.entry {s s' : PStore} (h : SameButParent s s') {d d' : Dict} {k : Bytes} {v : Obj}
    (hk : mapFind k d' = mapFind k d) (hv : ∀ e, v ≠ .dict e) (he : HasEntry s d k v) : HasEntry s' d' k v := by
  refine ⟨he.1, ?_⟩
  rw [hk]
  rcases he.2 with h1 | ⟨n, g, h1, h2⟩
  · exact .inl h1
  · refine .inr ⟨n, g, h1, ?_⟩
    rcases h (n, g) with ⟨d1, _, h3, _⟩ | ⟨_, h3⟩
    · rw [h2] at h3; exact absurd h3 (hv d1)
    · rw [h3, h2]

mutual
theorem stored_parent {s s' : PStore} (h : SameButParent s s') (t : PageTree) (ht : StoredTree s t) : StoredTree s' t := by
  match t with
  | .page r =>
    rw [StoredTree] at ht ⊢
    obtain ⟨d, h1, h2⟩ := ht
    obtain ⟨d', h3, h4⟩ := h.dict h1
    exact ⟨d', h3, h.entry (h4 _ (by decide)) (fun e => by simp) h2⟩
  | .node r kids =>
    rw [StoredTree] at ht ⊢
    obtain ⟨⟨d, h1, h2, h3, h4, h5⟩, h6⟩ := ht
    obtain ⟨d', h7, h8⟩ := h.dict h1
    exact ⟨⟨d', h7, h.entry (h8 _ (by decide)) (fun e => by simp) h2, h.entry (h8 _ (by decide)) (fun e => by simp) h3,
      h.entry (h8 _ (by decide)) (fun e => by simp) h4, h5⟩, storeds_parent h kids h6⟩
theorem storeds_parent {s s' : PStore} (h : SameButParent s s') (ts : List PageTree) (ht : StoredTrees s ts) : StoredTrees s' ts := by
  match ts with
  | [] => rw [StoredTrees]; trivial
  | t :: ts =>
    rw [StoredTrees] at ht ⊢
    exact ⟨stored_parent h t ht.1, storeds_parent h ts ht.2⟩
end

theorem dropParent_same {src : SStore} {p : ObjRef} {d : Dict} (hp : src p = .direct (.dict d)) :
    SameButParent (pageView src) (pageView (dropParent src p d)) := by
  intro r
  by_cases hr : r = p
  · subst hr
    refine .inl ⟨d, mapErase (b! "Parent") d, pageView_direct hp, pageView_direct (by unfold dropParent; rw [if_pos rfl]), fun k hk => ?_⟩
    rw [mapFind_erase, if_neg hk]
  · have e : pageView (dropParent src p d) r = pageView src r := by
      unfold pageView dropParent
      rw [if_neg hr]
    cases ho : pageView src r with
    | dict d1 => exact .inl ⟨d1, d1, rfl, by rw [e, ho], fun _ _ => rfl⟩
    | _ => exact .inr ⟨fun d => by simp, by rw [e, ho]⟩

theorem dropParent_noParent {src : SStore} {p : ObjRef} {d : Dict} (hp : src p = .direct (.dict d))
    (hpt : mapFind (b! "Type") d = some (.name (b! "Page"))) (r : ObjRef) :
    noParent (dropParent src p d r) = noParent (src r) := by
  unfold dropParent
  split
  · rename_i e
    rw [e, hp]
    have h1 : isPage (mapErase (b! "Parent") d) = true := isPage_of (by rw [mapFind_erase, if_neg (by decide)]; exact hpt)
    simp only [noParent, h1, isPage_of hpt, if_true]
    simp only [mapErase, List.filter_filter, Bool.and_self]
  · rfl

theorem FaithfulCopy.source {src src' D : SStore} {ns : List ObjRef} {p c : ObjRef} (h : FaithfulCopy src' D ns p c)
    (hs : ∀ r, noParent (src' r) = noParent (src r)) : FaithfulCopy src D ns p c := by
  obtain ⟨φ, R, h1, h2, h3, h4⟩ := h
  refine ⟨φ, R, h1, h2, fun r hr q hq => h3 r hr q (by rw [hs]; exact hq), fun r hr => ?_⟩
  rw [← hs]
  exact h4 r hr

theorem FaithfulCopy.has {src D : SStore} {ns : List ObjRef} {p c : ObjRef} (h : FaithfulCopy src D ns p c) :
    c ∉ ns ∧ DocObjects.Has D c := by
  obtain ⟨φ, R, h1, rfl, _, h4⟩ := h
  exact ⟨(h4 p h1).1, (h4 p h1).2.1⟩

/-- The loop over the pages of the source document. -/
theorem appendPages_spec {f k : Nat} {sroot root : ObjRef} {kids : List PageTree} {l : List ObjRef} (hf : l.length < f)
    (hkids : (PageTree.node sroot kids).depth ≤ f) (hbound : (pagesOf kids).length < 2 ^ 63) :
    ∀ (n i : Nat) (src : SStore) (dst : CopyTarget) (ts : List PageTree), i + n = (pagesOf kids).length →
    StoredTree (pageView src) (.node sroot kids) → (∀ p ∈ pagesOf kids, Shaped (pageView src) (.page p)) →
    (∀ r, DocObjects.Has src r → r ∈ l) → Complete src → Shaped (pageView dst.objs) (.node root ts) →
    StoredTree (pageView dst.objs) (.node root ts) → (PageTree.node root ts).nodes.Nodup →
    Roomy dst.alloc (k + n * l.length) → Listed dst.objs dst.alloc.chain → depthOf ts + 1 < f → ts.length + n < 2 ^ 64 - 1 →
    (pagesOf ts).length + n + 1 < 2 ^ 63 →
    ∃ (src' : SStore) (dst' : CopyTarget) (new : List ObjRef), appendPages f sroot root n (i + 1) src dst = .ok (src', dst') ∧ new.length = n ∧
      Shaped (pageView dst'.objs) (.node root (ts ++ new.map .page)) ∧
      StoredTree (pageView dst'.objs) (.node root (ts ++ new.map .page)) ∧
      (∀ (j : Nat) (p c : ObjRef), (pagesOf kids)[i + j]? = some p → new[j]? = some c →
        FaithfulCopy src dst'.objs (PageTree.node root ts).nodes p c) ∧
      (∀ c ∈ new, ¬ DocObjects.Has dst.objs c) ∧ new.Nodup ∧
      (∀ r, r ∉ (PageTree.node root ts).nodes → DocObjects.Has dst.objs r → dst'.objs r = dst.objs r) ∧
      (∀ r, noParent (src' r) = noParent (src r)) ∧ (∀ r, r ∉ pagesOf kids → src' r = src r)
  | 0, i, src, dst, ts, _, _, _, _, _, h5, h6, _, _, _, _, _, _ =>
    ⟨src, dst, [], rfl, rfl, by simpa using h5, by simpa using h6, fun j p c _ h => by simp at h, fun c h => by simp at h, by simp,
      fun _ _ _ => rfl, fun _ => rfl, fun _ _ => rfl⟩
  | n + 1, i, src, dst, ts, h0, h1, h2, h3, h4, h5, h6, h7, h8, h9, h10, h11, h12 => by
    obtain ⟨p, hp⟩ : ∃ p, (pagesOf kids)[i]? = some p := ⟨_, List.getElem?_eq_getElem (by omega)⟩
    have hpm : p ∈ pagesOf kids := List.mem_of_getElem? hp
    have hsh := h2 p hpm
    rw [Shaped] at hsh
    obtain ⟨d, hd, hty⟩ := hsh
    have hpd := pageView_dict hd
    have hat : pageAt (pageView src) f sroot (i + 1) = .ok p := by
      have hs := h1
      rw [StoredTree] at h1
      obtain ⟨⟨d, g1, g2, _⟩, _⟩ := h1
      unfold pageAt
      rw [if_neg (by omega), pageTreeNode_eq g1 g2, ok_bind]
      have := pageInternal_stored (pageView src) (i + 1) (by omega) (.node sroot kids) hs rfl f 1 hkids (by omega)
        (by rw [PageTree.pages]; omega)
      rw [show (PageTree.node sroot kids).ref = sroot from rfl, show (PageTree.node sroot kids).pages = pagesOf kids from rfl,
        Nat.add_sub_cancel, hp] at this
      exact this
    obtain ⟨dst1, c, a1, a2, a3, a4, a5, a6, a7, a8⟩ := appendForeignPage_spec (k := k + n * l.length) h3 h4 hpd hty h5 h7
      (by rw [Nat.add_assoc, ← Nat.succ_mul]; exact h8) h9 hf h10 (by omega) (by omega)
    have hsame := dropParent_same hpd
    have hnp := dropParent_noParent hpd hty
    have hns : (PageTree.node root (ts ++ [.page c])).nodes = (PageTree.node root ts).nodes := by
      rw [PageTree.nodes, PageTree.nodes, nodesOf_append]
      simp [nodesOf, PageTree.nodes]
    have hlen : (pagesOf (ts ++ [.page c])).length = (pagesOf ts).length + 1 := by
      rw [pagesOf_append, List.length_append]; rfl
    have hdep : depthOf (ts ++ [.page c]) = depthOf ts := by
      rw [depthOf_append]
      simp [depthOf, PageTree.depth]
    obtain ⟨src2, dst2, new, b1, b2, b3, b4, b5, b6, b7, b8, b9, b10⟩ := appendPages_spec hf hkids hbound n (i + 1) (dropParent src p d)
      dst1 (ts ++ [.page c]) (by omega) (stored_parent hsame _ h1)
      (fun q hq => by
        have := h2 q hq
        rw [Shaped] at this ⊢
        obtain ⟨d1, e1, e2⟩ := this
        obtain ⟨d2, e3, e4⟩ := hsame.dict e1
        exact ⟨d2, e3, by rw [e4 _ (by decide), e2]⟩)
      (fun r hr => h3 r (by
        unfold dropParent DocObjects.Has at hr
        unfold DocObjects.Has
        dsimp only at hr
        split at hr
        · rename_i e; rw [e, hpd]; simp
        · exact hr))
      (fun r q hq => by
        have hm : MentionsS q (src r) := by
          unfold dropParent at hq
          split at hq
          · rename_i e
            rw [e, hpd]
            unfold MentionsS at hq ⊢
            dsimp only at hq ⊢
            cases hq with
            | dict _ k o hm ho => exact .dict _ k o (List.mem_filter.mp hm).1 ho
          · exact hq
        have := h4 r q hm
        unfold dropParent DocObjects.Has
        dsimp only
        split
        · simp
        · exact this)
      a2 a3 (by rw [hns]; exact h7) a7 a8 (by rw [hdep]; exact h10) (by rw [List.length_append]; simp only [List.length_singleton]; omega)
      (by rw [hlen]; omega)
    rw [hns] at b5 b8
    have hcat : ts ++ [PageTree.page c] ++ new.map .page = ts ++ (c :: new).map .page := by simp
    rw [hcat] at b3 b4
    refine ⟨src2, dst2, c :: new, ?_, by simp [b2], b3, b4, ?_, ?_, ?_, ?_, ?_, ?_⟩
    · rw [appendPages, hat, ok_bind, a1, ok_bind]
      exact b1
    · intro j q e hq he
      cases j with
      | zero =>
        rw [Nat.add_zero, hp] at hq
        cases hq
        simp only [List.getElem?_cons_zero, Option.some.injEq] at he
        subst he
        exact a4.keep b8
      | succ j =>
        simp only [List.getElem?_cons_succ] at he
        exact (b5 j q e (by rw [Nat.add_assoc, Nat.add_comm 1 j]; exact hq) he).source hnp
    · intro e he
      rcases List.mem_cons.mp he with rfl | he
      · exact a5
      · intro hh
        refine b6 e he ?_
        by_cases hn : e ∈ (PageTree.node root ts).nodes
        · obtain ⟨d', g1, _⟩ := shaped_nodes _ a2 e (by rw [hns]; exact hn)
          unfold DocObjects.Has; rw [pageView_dict g1]; simp
        · unfold DocObjects.Has at hh ⊢
          rw [a6 e hn hh]; exact hh
    · rw [List.nodup_cons]
      exact ⟨fun hm => b6 c hm a4.has.2, b7⟩
    · intro r g1 g2
      have e := a6 r g1 g2
      rw [b8 r g1 (by unfold DocObjects.Has at g2 ⊢; rw [e]; exact g2), e]
    · intro r; rw [b9, hnp]
    · intro r hr
      rw [b10 r hr]
      unfold dropParent
      rw [if_neg (fun e : r = p => hr (by rw [e]; exact hpm))]

/-- A document appended to another one. -/
theorem appendDocument_spec {f k : Nat} {sroot root : ObjRef} {kids ts : List PageTree} {l : List ObjRef} {src : SStore} {dst : CopyTarget}
    (hf : l.length < f) (hkids : (PageTree.node sroot kids).depth ≤ f) (hbound : (pagesOf kids).length < 2 ^ 63)
    (h1 : StoredTree (pageView src) (.node sroot kids)) (h2 : ∀ p ∈ pagesOf kids, Shaped (pageView src) (.page p))
    (h3 : ∀ r, DocObjects.Has src r → r ∈ l) (h4 : Complete src) (h5 : Shaped (pageView dst.objs) (.node root ts))
    (h6 : StoredTree (pageView dst.objs) (.node root ts)) (h7 : (PageTree.node root ts).nodes.Nodup)
    (h8 : Roomy dst.alloc (k + (pagesOf kids).length * l.length)) (h9 : Listed dst.objs dst.alloc.chain) (h10 : depthOf ts + 1 < f)
    (h11 : ts.length + (pagesOf kids).length < 2 ^ 64 - 1) (h12 : (pagesOf ts).length + (pagesOf kids).length + 1 < 2 ^ 63) :
    ∃ (src' : SStore) (dst' : CopyTarget) (new : List ObjRef), appendDocument f sroot src root dst = .ok (src', dst') ∧ new.length = (pagesOf kids).length ∧
      StoredTree (pageView dst'.objs) (.node root (ts ++ new.map .page)) ∧
      (∀ (j : Nat) (p c : ObjRef), (pagesOf kids)[j]? = some p → new[j]? = some c →
        FaithfulCopy src dst'.objs (PageTree.node root ts).nodes p c) ∧
      (∀ c ∈ new, ¬ DocObjects.Has dst.objs c) ∧ new.Nodup ∧
      (∀ r, r ∉ (PageTree.node root ts).nodes → DocObjects.Has dst.objs r → dst'.objs r = dst.objs r) ∧
      (∀ r, noParent (src' r) = noParent (src r)) ∧ (∀ r, r ∉ pagesOf kids → src' r = src r) := by
  obtain ⟨src', dst', new, b1, b2, b3, b4, b5, b6, b7, b8, b9, b10⟩ := appendPages_spec hf hkids hbound _ 0 src dst ts (by omega) h1 h2 h3 h4 h5
    h6 h7 h8 h9 h10 h11 h12
  refine ⟨src', dst', new, ?_, b2, b4, fun j p c hp hc => b5 j p c (by rw [Nat.zero_add]; exact hp) hc, b6, b7, b8, b9, b10⟩
  have hc : pageCount (pageView src) sroot = .ok (pagesOf kids).length := by
    rw [StoredTree] at h1
    obtain ⟨⟨d, g1, g2, _, g4, g5⟩, _⟩ := h1
    unfold pageCount
    rw [pageTreeNode_eq g1 g2, ok_bind, kidCount_eq g4 g5]
  unfold appendDocument
  rw [hc, ok_bind]
  exact b1

end VPdf
