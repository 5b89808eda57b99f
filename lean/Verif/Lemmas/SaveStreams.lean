import Verif.Props.ObjectStream
import Verif.Model.SaveStreams
/-
  Saving documents with object streams: what `saveDocument` writes is what `saveFile` writes of the document whose object
  streams have been filled.
-/
namespace VPdf
open Spec

/-! ### the object streams of a section -/

theorem mem_usedStreams (es : List WEntry) (sn : Nat) : sn ∈ usedStreams es ↔ ∃ e ∈ es, ∃ i o, e.kind = .compressed sn i o := by
  induction es with
  | nil => simp [usedStreams]
  | cons e es ih =>
    rw [usedStreams]
    cases hk : e.kind with
    | compressed s i o =>
      dsimp only
      split
      · rename_i hs
        rw [ih]
        constructor
        · rintro ⟨e', he', h⟩; exact ⟨e', by simp [he'], h⟩
        · rintro ⟨e', he', j, o', h⟩
          rcases List.mem_cons.mp he' with rfl | he'
          · rw [hk] at h; injection h with h; subst h; exact ih.mp hs
          · exact ⟨e', he', j, o', h⟩
      · rw [List.mem_cons, ih]
        constructor
        · rintro (rfl | ⟨e', he', h⟩)
          · exact ⟨e, by simp, i, o, hk⟩
          · exact ⟨e', by simp [he'], h⟩
        · rintro ⟨e', he', j, o', h⟩
          rcases List.mem_cons.mp he' with rfl | he'
          · rw [hk] at h; injection h with h; exact .inl h.symm
          · exact .inr ⟨e', he', j, o', h⟩
    | _ =>
      dsimp only
      rw [ih]
      constructor
      · rintro ⟨e', he', h⟩; exact ⟨e', by simp [he'], h⟩
      · rintro ⟨e', he', j, o', h⟩
        rcases List.mem_cons.mp he' with rfl | he'
        · rw [hk] at h; cases h
        · exact ⟨e', he', j, o', h⟩

theorem nodup_usedStreams (es : List WEntry) : (usedStreams es).Nodup := by
  induction es with
  | nil => exact .nil
  | cons e es ih =>
    rw [usedStreams]
    split
    · split
      · exact ih
      · rename_i h; exact List.nodup_cons.mpr ⟨h, ih⟩
    · exact ih

/-- An entry before and after the object streams with the numbers `P` have been filled with the objects of `es`. -/
def FilledBy (c : Codec) (es : List WEntry) (P : Nat → Prop) (e e' : WEntry) : Prop :=
  (¬ (P e.num ∧ e.gen = 0) → e' = e) ∧
  (P e.num ∧ e.gen = 0 → ∃ off d b o, e.kind = .used off (some (.stream d b)) ∧
    makeObjStm c d ((objStmMembers e.num es).map (·.2)) = .ok o ∧ e' = { e with kind := .used off (some o) })

theorem FilledBy.num {c : Codec} {es : List WEntry} {P : Nat → Prop} {e e' : WEntry} (h : FilledBy c es P e e') :
    e'.num = e.num ∧ e'.gen = e.gen := by
  by_cases hp : P e.num ∧ e.gen = 0
  · obtain ⟨_, _, _, _, _, _, rfl⟩ := h.2 hp; exact ⟨rfl, rfl⟩
  · rw [h.1 hp]; exact ⟨rfl, rfl⟩

theorem makeObjStm_stream {c : Codec} {d : Dict} {l : List (Nat × SObj)} {o : SObj} (h : makeObjStm c d l = .ok o) :
    ∃ d' b, o = .stream d' b := by
  unfold makeObjStm at h
  dsimp only at h
  obtain ⟨b, _, h⟩ := except_bind_ok h
  injection h with h
  exact ⟨_, _, h.symm⟩

namespace Zip
variable {α β γ : Type} {R : α → β → Prop}

theorem map_right {S : α → γ → Prop} {l : List α} {m : List β} (h : Zip R l m) (f : β → γ)
    (hi : ∀ a b, a ∈ l → b ∈ m → R a b → S a (f b)) : Zip S l (m.map f) := by
  induction h with
  | nil => exact .nil
  | cons a b l m hab _ ih =>
    exact .cons _ _ _ _ (hi a b (by simp) (by simp) hab) (ih fun a b ha hb => hi a b (by simp [ha]) (by simp [hb]))

theorem append {l l' : List α} {m m' : List β} (h : Zip R l m) (h' : Zip R l' m') : Zip R (l ++ l') (m ++ m') := by
  induction h with
  | nil => exact h'
  | cons a b l m hab _ ih => exact .cons _ _ _ _ hab ih

theorem reverse {l : List α} {m : List β} (h : Zip R l m) : Zip R l.reverse m.reverse := by
  induction h with
  | nil => exact .nil
  | cons a b l m hab _ ih =>
    rw [List.reverse_cons, List.reverse_cons]
    exact ih.append (.cons _ _ _ _ hab .nil)

theorem split {l : List α} {m : List β} (h : Zip R l m) : ∀ {a : List β} {s : β} {b : List β}, m = a ++ s :: b →
    ∃ a' s' b', l = a' ++ s' :: b' ∧ Zip R a' a ∧ R s' s ∧ Zip R b' b := by
  induction h with
  | nil => intro a s b he; simp at he
  | cons x y l m hxy hz ih =>
    intro a s b he
    cases a with
    | nil =>
      injection he with h1 h2
      subst h1; subst h2
      exact ⟨[], x, l, rfl, .nil, hxy, hz⟩
    | cons y' a =>
      injection he with h1 h2
      subst h1
      obtain ⟨a', s', b', e1, e2, e3, e4⟩ := ih h2
      exact ⟨x :: a', s', b', by rw [e1]; rfl, .cons _ _ _ _ hxy e2, e3, e4⟩
end Zip

/-- The section has no entry for the object stream. -/
def LacksStream (sn : Nat) (s : WSection) : Prop := ∀ e ∈ s.entries, ¬ (e.num = sn ∧ e.gen = 0)

theorem LacksStream.find {sn : Nat} {s : WSection} (h : LacksStream sn s) :
    s.entries.find? (fun e => e.num == sn && e.gen == 0) = none := by
  rw [List.find?_eq_none]
  intro e he
  simpa using h e he

theorem fillStream_at {c : Codec} {sn : Nat} {l : List (Nat × SObj)} (a : List WSection) : ∀ {s : WSection} {b r : List WSection},
    (∀ s' ∈ a, LacksStream sn s') → (∀ s' ∈ b, LacksStream sn s') → fillStream c sn l (a ++ s :: b) = .ok r →
    ∃ e off d body o, e ∈ s.entries ∧ e.num = sn ∧ e.gen = 0 ∧ e.kind = .used off (some (.stream d body)) ∧
      makeObjStm c d l = .ok o ∧
      r = a ++ { s with entries := s.entries.map fun x => if x.num = sn ∧ x.gen = 0 then { x with kind := .used off (some o) } else x } :: b := by
  induction a with
  | nil =>
    intro s b r _ hb h
    rw [List.nil_append, fillStream] at h
    cases hf : s.entries.find? (fun e => e.num == sn && e.gen == 0) with
    | none =>
      rw [hf] at h
      dsimp only at h
      obtain ⟨r', h1, hx⟩ := except_bind_ok h
      exfalso
      clear h hx
      induction b generalizing r' with
      | nil => cases h1
      | cons s' b ih =>
        rw [fillStream, (hb s' (by simp)).find] at h1
        dsimp only at h1
        obtain ⟨r'', h2, _⟩ := except_bind_ok h1
        exact ih (fun s hs => hb s (by simp [hs])) r'' h2
    | some e =>
      rw [hf] at h
      dsimp only at h
      have hm := List.mem_of_find?_eq_some hf
      have hp := List.find?_some hf
      simp only [Bool.and_eq_true, beq_iff_eq] at hp
      cases hk : e.kind with
      | free k => rw [hk] at h; cases h
      | compressed _ _ _ => rw [hk] at h; cases h
      | used off o =>
        rw [hk] at h
        cases o with
        | none => cases h
        | some o =>
          cases o with
          | direct o => cases h
          | stream d body =>
            dsimp only at h
            obtain ⟨o, h1, h2⟩ := except_bind_ok h
            injection h2 with h2
            exact ⟨e, off, d, body, o, hm, hp.1, hp.2, hk, h1, h2.symm⟩
  | cons s' a ih =>
    intro s b r ha hb h
    rw [List.cons_append, fillStream, (ha s' (by simp)).find] at h
    dsimp only at h
    obtain ⟨r', h1, h2⟩ := except_bind_ok h
    injection h2 with h2
    obtain ⟨e, off, d, body, o, q1, q2, q3, q4, q5, q6⟩ := ih (fun s hs => ha s (by simp [hs])) hb h1
    exact ⟨e, off, d, body, o, q1, q2, q3, q4, q5, by rw [← h2, q6]; rfl⟩

theorem entry_unique {es : List WEntry} (hs : es.Pairwise (fun a b => a.num < b.num)) {a b : WEntry} (ha : a ∈ es) (hb : b ∈ es)
    (hne : a ≠ b) : a.num ≠ b.num := by
  induction es with
  | nil => cases ha
  | cons x es ih =>
    rw [List.pairwise_cons] at hs
    rcases List.mem_cons.mp ha with rfl | ha' <;> rcases List.mem_cons.mp hb with rfl | hb'
    · exact absurd rfl hne
    · have := hs.1 b hb'; omega
    · have := hs.1 a ha'; omega
    · exact ih hs.2 ha' hb'

theorem fillStreams_at {c : Codec} {es : List WEntry} (hs : es.Pairwise (fun a b => a.num < b.num)) (l : List Nat) :
    ∀ {P : Nat → Prop} {a b r : List WSection} {s : WSection}, l.Nodup → (∀ sn ∈ l, ¬ P sn) →
    (∀ sn ∈ l, ∀ s' ∈ a, LacksStream sn s') → (∀ sn ∈ l, ∀ s' ∈ b, LacksStream sn s') →
    Zip (FilledBy c es P) es s.entries → fillStreams c es l (a ++ s :: b) = .ok r →
    ∃ es', r = a ++ { s with entries := es' } :: b ∧ Zip (FilledBy c es (fun n => P n ∨ n ∈ l)) es es' ∧
      ∀ sn ∈ l, ∃ e ∈ es, e.num = sn ∧ e.gen = 0 := by
  induction l with
  | nil =>
    intro P a b r s _ _ _ _ hz h
    injection h with h
    exact ⟨s.entries, h.symm, by simpa using hz, by simp⟩
  | cons sn l ih =>
    intro P a b r s hn hP ha hb hz h
    rw [fillStreams] at h
    obtain ⟨chain, h1, h⟩ := except_bind_ok h
    rw [List.nodup_cons] at hn
    obtain ⟨e0, off, d, body, o, q1, q2, q3, q4, q5, rfl⟩ := fillStream_at a (ha sn (by simp)) (hb sn (by simp)) h1
    have step : Zip (FilledBy c es (fun n => P n ∨ n = sn)) es
        (s.entries.map fun x => if x.num = sn ∧ x.gen = 0 then { x with kind := .used off (some o) } else x) := by
      refine hz.map_right _ fun e e' he he' hf => ?_
      obtain ⟨n1, n2⟩ := hf.num
      by_cases hx : e'.num = sn ∧ e'.gen = 0
      · rw [if_pos hx]
        have hnp : ¬ (P e.num ∧ e.gen = 0) := fun q => hP sn (by simp) (by rw [← hx.1, n1]; exact q.1)
        have hee := hf.1 hnp
        subst hee
        -- the entry found is this one
        obtain ⟨e1, he1, hf1⟩ := hz.right e0 q1
        have m1 := hf1.num
        have : e1 = e' := by
          by_contra hne
          exact entry_unique hs he1 he hne (by omega)
        subst this
        have : e0 = e1 := hf1.1 hnp
        subst this
        exact ⟨fun q => absurd ⟨.inr q2, q3⟩ q, fun _ => ⟨off, d, body, o, q4, by rw [q2]; exact q5, rfl⟩⟩
      · rw [if_neg hx]
        have hx' : ¬ (e.num = sn ∧ e.gen = 0) := by rw [← n1, ← n2]; exact hx
        refine ⟨fun q => hf.1 fun q' => q ⟨.inl q'.1, q'.2⟩, fun q => hf.2 ⟨?_, q.2⟩⟩
        rcases q.1 with q1 | q1
        · exact q1
        · exact absurd ⟨q1, q.2⟩ hx'
    obtain ⟨es', k1, k2, k3⟩ := ih (P := fun n => P n ∨ n = sn) hn.2 (fun m hm q => by
        rcases q with q | rfl
        · exact hP m (by simp [hm]) q
        · exact hn.1 hm)
      (fun m hm => ha m (by simp [hm])) (fun m hm => hb m (by simp [hm])) step h
    refine ⟨es', k1, k2.imp fun e e' hf => ?_, fun m hm => ?_⟩
    rotate_left
    · rcases List.mem_cons.mp hm with rfl | hm
      · obtain ⟨e1, he1, hf1⟩ := hz.right e0 q1
        exact ⟨e1, he1, by rw [← hf1.num.1]; exact q2, by rw [← hf1.num.2]; exact q3⟩
      · exact k3 m hm
    have he : (fun n => (P n ∨ n = sn) ∨ n ∈ l) = fun n => P n ∨ n ∈ sn :: l := by
      funext n; simp [List.mem_cons, or_assoc]
    rw [he] at hf; exact hf

/-- A section before and after its object streams have been filled. -/
structure Filled (c : Codec) (s s' : WSection) : Prop where
  own : s'.own = s.own
  trailer : s'.trailer = s.trailer
  entries : Zip (FilledBy c s.entries (· ∈ usedStreams s.entries)) s.entries s'.entries
  there : ∀ sn ∈ usedStreams s.entries, ∃ e ∈ s.entries, e.num = sn ∧ e.gen = 0

theorem filledBy_refl {c : Codec} {es : List WEntry} {P : Nat → Prop} (e : WEntry) (h : ¬ P e.num) : FilledBy c es P e e :=
  ⟨fun _ => rfl, fun q => absurd q.1 h⟩

theorem Zip.refl_of {α : Type} {R : α → α → Prop} {l : List α} (h : ∀ a ∈ l, R a a) : Zip R l l := by
  have := Zip.of_map (R := R) (l := l) id h
  simpa using this

theorem fillSection_at {c : Codec} {a b r : List WSection} {s : WSection} (hs : s.entries.Pairwise (fun a b => a.num < b.num))
    (hn : s.own = none → usedStreams s.entries = []) (ha : ∀ sn ∈ usedStreams s.entries, ∀ s' ∈ a ++ b, LacksStream sn s')
    (h : fillSection c s (a ++ s :: b) = .ok r) : ∃ s', r = a ++ s' :: b ∧ Filled c s s' := by
  rw [fillSection] at h
  cases ho : s.own with
  | none =>
    rw [ho] at h
    injection h with h
    refine ⟨s, h.symm, rfl, rfl, Zip.refl_of fun e _ => filledBy_refl e ?_, ?_⟩ <;> rw [hn ho] <;> simp
  | some p =>
    rw [ho] at h
    dsimp only at h
    obtain ⟨es', k1, k2, k3⟩ := fillStreams_at (P := fun _ => False) hs _ (nodup_usedStreams _) (by simp)
      (fun m hm s' hs' => ha m hm s' (by simp [hs'])) (fun m hm s' hs' => ha m hm s' (by simp [hs']))
      (Zip.refl_of fun e _ => filledBy_refl e (by simp)) h
    exact ⟨_, k1, rfl, rfl, by simpa using k2, k3⟩

/-! ### references do not lead to object streams -/

theorem Filled.lacks {c : Codec} {s s' : WSection} (h : Filled c s s') {sn : Nat} (hl : LacksStream sn s) : LacksStream sn s' := by
  intro e' he' q
  obtain ⟨e, he, hf⟩ := h.entries.right e' he'
  obtain ⟨n1, n2⟩ := hf.num
  exact hl e he ⟨by omega, by omega⟩

theorem find_zip {R : WEntry → WEntry → Prop} (hR : ∀ a b, R a b → b.num = a.num ∧ b.gen = a.gen) {l m : List WEntry}
    (h : Zip R l m) (n g : Nat) :
    (l.find? (fun e => e.num == n && e.gen == g) = none ∧ m.find? (fun e => e.num == n && e.gen == g) = none) ∨
    ∃ e e', l.find? (fun e => e.num == n && e.gen == g) = some e ∧ m.find? (fun e => e.num == n && e.gen == g) = some e' ∧ R e e' := by
  induction h with
  | nil => exact .inl ⟨rfl, rfl⟩
  | cons a b l m hab _ ih =>
    obtain ⟨h1, h2⟩ := hR a b hab
    rw [List.find?_cons, List.find?_cons, h1, h2]
    by_cases hp : (a.num == n && a.gen == g) = true
    · simp only [hp]; exact .inr ⟨a, b, rfl, rfl, hab⟩
    · simp only [hp]; exact ih

theorem destResolve_filled {c : Codec} {l m : List WSection} (h : Zip (fun s s' => s' = s ∨ Filled c s s') l m) :
    destResolve m = destResolve l := by
  funext n g
  induction h with
  | nil => rfl
  | cons s s' l m hs _ ih =>
    rw [destResolve, destResolve, ih]
    rcases hs with rfl | hs
    · rfl
    · rcases find_zip (fun a b h => h.num) hs.entries n g with ⟨h1, h2⟩ | ⟨e, e', h1, h2, hf⟩
      · rw [h1, h2]
      · rw [h1, h2]
        dsimp only
        by_cases hp : e.num ∈ usedStreams s.entries ∧ e.gen = 0
        · obtain ⟨off, d, b, o, k1, k2, rfl⟩ := hf.2 hp
          obtain ⟨d', b', rfl⟩ := makeObjStm_stream k2
          rw [k1]
        · rw [hf.1 hp]

/-! ### the chain -/

theorem Filled.refl_or {c : Codec} (l : List WSection) : Zip (fun s s' => s' = s ∨ Filled c s s') l l :=
  Zip.refl_of fun _ _ => .inl rfl

/-- What is written is the chain of the filled sections. -/
theorem saveChain_spec {c : Codec} {r : Nat → Nat → Res Int} (todo : List WSection) : ∀ {olds done : List WSection} {i : Nat} {out file : Bytes}
    {prev : Option Int}, done.length = i → Zip (Filled c) olds done → destResolve (olds ++ todo) = r →
    (∀ s ∈ todo, s.entries.Pairwise (fun a b => a.num < b.num)) → (∀ s ∈ todo, s.own = none → usedStreams s.entries = []) →
    (∀ a s b, olds ++ todo = a ++ s :: b → ∀ sn ∈ usedStreams s.entries, ∀ s' ∈ a ++ b, LacksStream sn s') →
    saveChain c todo.length i out prev (done ++ todo) = .ok file →
    ∃ todo', Zip (Filled c) todo todo' ∧ writeChain c r out prev todo' = .ok file := by
  induction todo with
  | nil =>
    intro olds done i out file prev _ _ _ _ _ _ h
    rw [List.length_nil, saveChain] at h
    exact ⟨[], .nil, by rw [writeChain]; exact h⟩
  | cons s todo ih =>
    intro olds done i out file prev hi hz hr hsort hown hap h
    rw [List.length_cons, saveChain] at h
    have hget : ∀ (s : WSection) (l : List WSection), (done ++ s :: l)[i]? = some s := by
      intro s l; rw [List.getElem?_append_right (by omega), hi]; simp
    rw [hget] at h
    dsimp only at h
    obtain ⟨chain, h1, h⟩ := except_bind_ok h
    obtain ⟨s', rfl, hf⟩ := fillSection_at (hsort s (by simp)) (hown s (by simp)) (fun sn hsn t ht => by
      rcases List.mem_append.mp ht with ht | ht
      · obtain ⟨t', ht', hft⟩ := hz.right t ht
        exact hft.lacks (hap olds s todo rfl sn hsn t' (by simp [ht']))
      · exact hap olds s todo rfl sn hsn t (by simp [ht])) h1
    rw [hget] at h
    dsimp only at h
    obtain ⟨⟨o1, off, s2⟩, h2, h⟩ := except_bind_ok h
    dsimp only at h
    have hz' : Zip (Filled c) (olds ++ [s]) (done ++ [s']) := hz.append (.cons _ _ _ _ hf .nil)
    have hres : destResolve (done ++ s' :: todo) = r := by
      rw [← hr]
      refine destResolve_filled (c := c) (Zip.append (hz.imp fun _ _ h => .inr h) (.cons _ _ _ _ (.inr hf) (Filled.refl_or todo)))
    rw [hres] at h2
    have e1 : olds ++ [s] ++ todo = olds ++ s :: todo := by simp
    have e2 : done ++ [s'] ++ todo = done ++ s' :: todo := by simp
    obtain ⟨todo', k1, k2⟩ := ih (olds := olds ++ [s]) (done := done ++ [s']) (i := i + 1) (by simp [hi]) hz' (by rw [e1]; exact hr)
      (fun t ht => hsort t (by simp [ht])) (fun t ht => hown t (by simp [ht])) (by rw [e1]; exact hap) (by rw [e2]; exact h)
    refine ⟨s' :: todo', .cons _ _ _ _ hf k1, ?_⟩
    rw [writeChain, h2, ok_bind]
    exact k2

/-! ### clones -/

theorem usedStreams_clone (es : List WEntry) : usedStreams (es.map cloneEntry) = usedStreams es := by
  induction es with
  | nil => rfl
  | cons e es ih =>
    rw [List.map_cons, usedStreams, usedStreams, ih]
    obtain ⟨n, g, k⟩ := e
    cases k with
    | used off o => cases o <;> rfl
    | _ => rfl

theorem objStmMembers_clone (sn : Nat) (es : List WEntry) : objStmMembers sn (es.map cloneEntry) = objStmMembers sn es := by
  induction es with
  | nil => rfl
  | cons e es ih =>
    rw [List.map_cons, objStmMembers, objStmMembers, ih]
    obtain ⟨n, g, k⟩ := e
    cases k with
    | used off o => cases o <;> rfl
    | _ => rfl

/-- A filled clone is the clone of a filled section. -/
theorem filled_clone {c : Codec} {s t : WSection} (h : Filled c (cloneSection s) t) : ∃ s', Filled c s s' ∧ cloneSection s' = t := by
  have he : Zip (FilledBy c (s.entries.map cloneEntry) (· ∈ usedStreams (s.entries.map cloneEntry))) (s.entries.map cloneEntry) t.entries :=
    h.entries
  rw [usedStreams_clone] at he
  have key : ∀ (es : List WEntry) (l : List WEntry),
      Zip (FilledBy c (s.entries.map cloneEntry) (· ∈ usedStreams s.entries)) (es.map cloneEntry) l →
      ∃ es', Zip (FilledBy c s.entries (· ∈ usedStreams s.entries)) es es' ∧ es'.map cloneEntry = l := by
    intro es
    induction es with
    | nil => intro l hz; cases hz; exact ⟨[], .nil, rfl⟩
    | cons e es ih =>
      intro l hz
      cases hz with
      | cons _ e' _ l hf hz =>
        obtain ⟨es', k1, k2⟩ := ih l hz
        obtain ⟨c1, c2⟩ := cloneEntry_num e
        by_cases hp : e.num ∈ usedStreams s.entries ∧ e.gen = 0
        · obtain ⟨off, d, b, o, q1, q2, rfl⟩ := hf.2 (by rw [c1, c2]; exact hp)
          obtain ⟨d', b', rfl⟩ := makeObjStm_stream q2
          have hk : e.kind = .used off (some (.stream d b)) := by
            obtain ⟨n, g, k⟩ := e
            cases k with
            | free _ => cases q1
            | compressed _ _ _ => cases q1
            | used off' o => cases o with
              | none => cases q1
              | some o => exact q1
          rw [c1, objStmMembers_clone] at q2
          refine ⟨{ e with kind := .used off (some (.stream d' b')) } :: es',
            .cons _ _ _ _ ⟨fun q => absurd hp q, fun _ => ⟨off, d, b, _, hk, q2, rfl⟩⟩ k1, ?_⟩
          rw [List.map_cons, k2]
          congr 1
          obtain ⟨n, g, k⟩ := e
          dsimp only at hk; subst hk; rfl
        · have := hf.1 (by rw [c1, c2]; exact hp)
          subst this
          exact ⟨e :: es', .cons _ _ _ _ ⟨fun _ => rfl, fun q => absurd q hp⟩ k1, by rw [List.map_cons, k2]⟩
  obtain ⟨es', k1, k2⟩ := key _ _ he
  refine ⟨{ s with entries := es' }, ⟨rfl, rfl, k1, fun sn hsn => ?_⟩, ?_⟩
  · obtain ⟨e, he, h1, h2⟩ := h.there sn (by show sn ∈ usedStreams (s.entries.map cloneEntry); rw [usedStreams_clone]; exact hsn)
    obtain ⟨e', he', rfl⟩ := List.mem_map.mp (show e ∈ s.entries.map cloneEntry from he)
    rw [(cloneEntry_num e').1] at h1; rw [(cloneEntry_num e').2] at h2
    exact ⟨e', he', h1, h2⟩
  have ho := h.own
  have ht := h.trailer
  obtain ⟨own, entries, trailer⟩ := t
  dsimp only at ho ht k2
  subst ho; subst ht; subst k2
  unfold cloneSection
  rw [← k1.length]

theorem zip_clone {c : Codec} {l m : List WSection} : Zip (Filled c) (l.map cloneSection) m →
    ∃ l', Zip (Filled c) l l' ∧ l'.map cloneSection = m := by
  induction l generalizing m with
  | nil => intro h; cases h; exact ⟨[], .nil, rfl⟩
  | cons s l ih =>
    intro h
    cases h with
    | cons _ t _ m hf hz =>
      obtain ⟨s', k1, rfl⟩ := filled_clone hf
      obtain ⟨l', k2, rfl⟩ := ih hz
      exact ⟨s' :: l', .cons _ _ _ _ k1 k2, rfl⟩

/-- Saving a document is saving the document with filled object streams. -/
theorem saveDocument_spec {c : Codec} {v : PdfVersion} {ss : List WSection} {file : Bytes}
    (hsort : ∀ s ∈ ss, s.entries.Pairwise (fun a b => a.num < b.num)) (hown : ∀ s ∈ ss, s.own = none → usedStreams s.entries = [])
    (hap : ∀ a s b, ss = a ++ s :: b → ∀ sn ∈ usedStreams s.entries, ∀ s' ∈ a ++ b, LacksStream sn s')
    (h : saveDocument c v ss = .ok file) : ∃ ts, Zip (Filled c) ss ts ∧ saveFile c v ts = .ok file := by
  rw [saveDocument] at h
  have clacks : ∀ sn s, LacksStream sn s → LacksStream sn (cloneSection s) := by
    intro sn s hl e he
    obtain ⟨e', he', rfl⟩ := List.mem_map.mp (show e ∈ s.entries.map cloneEntry from he)
    rw [(cloneEntry_num e').1, (cloneEntry_num e').2]; exact hl e' he'
  obtain ⟨todo', k1, k2⟩ := saveChain_spec (c := c) (r := destResolve (ss.map cloneSection).reverse) (ss.map cloneSection).reverse
    (olds := []) (done := []) (i := 0) rfl .nil rfl
    (fun s hs => by
      obtain ⟨s', hs', rfl⟩ := List.mem_map.mp (List.mem_reverse.mp hs)
      show (s'.entries.map cloneEntry).Pairwise _
      rw [List.pairwise_map]
      exact (hsort s' hs').imp fun h => by rw [(cloneEntry_num _).1, (cloneEntry_num _).1]; exact h)
    (fun s hs ho => by
      obtain ⟨s', hs', rfl⟩ := List.mem_map.mp (List.mem_reverse.mp hs)
      show usedStreams (s'.entries.map cloneEntry) = []
      rw [usedStreams_clone]; exact hown s' hs' ho)
    (fun a s b he sn hsn s' hs' => by
      rw [List.nil_append, List.reverse_eq_iff, List.reverse_append, List.reverse_cons, List.append_assoc] at he
      obtain ⟨x, y, e1, e2, e3⟩ := List.map_eq_append_iff.mp he
      obtain ⟨y1, y2, e4, e5, e6⟩ := List.map_eq_append_iff.mp e3
      cases y1 with
      | nil => simp at e5
      | cons z y1 =>
        simp only [List.map_cons, List.cons.injEq, List.map_eq_nil_iff] at e5
        obtain ⟨rfl, rfl⟩ := e5
        subst e4
        have hsn' : sn ∈ usedStreams z.entries := by rw [← usedStreams_clone]; exact hsn
        have := hap x z y2 (by rw [e1]; simp) sn hsn'
        rcases List.mem_append.mp hs' with hs' | hs'
        · have : s' ∈ y2.map cloneSection := by rw [e6]; simpa using hs'
          obtain ⟨t, ht, rfl⟩ := List.mem_map.mp this
          exact clacks _ _ (hap x z y2 (by rw [e1]; simp) sn hsn' t (by simp [ht]))
        · have : s' ∈ x.map cloneSection := by rw [e2]; simpa using hs'
          obtain ⟨t, ht, rfl⟩ := List.mem_map.mp this
          exact clacks _ _ (hap x z y2 (by rw [e1]; simp) sn hsn' t (by simp [ht])))
    (by simpa using h)
  have hrev := k1.reverse
  rw [List.reverse_reverse] at hrev
  obtain ⟨ts, t1, t2⟩ := zip_clone hrev
  refine ⟨ts, t1, ?_⟩
  rw [saveFile]
  have : (ts.map cloneSection).reverse = todo' := by rw [t2, List.reverse_reverse]
  rw [this]
  have hd : destResolve todo' = destResolve (ss.map cloneSection).reverse :=
    destResolve_filled (c := c) (k1.imp fun _ _ h => .inr h)
  rw [hd]
  exact k2

end VPdf
