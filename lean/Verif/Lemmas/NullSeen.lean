import Verif.Lemmas.Graph
/-
  Whether a document refers to missing objects can be seen.
-/
namespace VPdf
open Spec

/-- The tree has a reference with `x` behind it. -/
inductive Shows {α : Type} (x : Tree α) : Tree α → Prop where
  | here : Shows x (.ref x)
  | ref (t : Tree α) : Shows x t → Shows x (.ref t)
  | arr (l : List (Tree α)) (t : Tree α) : t ∈ l → Shows x t → Shows x (.arr l)
  | dict (l : List (List UInt8 × Tree α)) (k : List UInt8) (t : Tree α) : (k, t) ∈ l → Shows x t → Shows x (.dict l)
  | stream (l : List (List UInt8 × Tree α)) (b : List UInt8) (k : List UInt8) (t : Tree α) : (k, t) ∈ l → Shows x t → Shows x (.stream l b)

theorem Shows.trans {α : Type} {x y z : Tree α} (h : Shows x y) (h' : Shows y z) : Shows x z := by
  induction h' with
  | here => exact .ref _ h
  | ref t _ ih => exact .ref t ih
  | arr l t ht _ ih => exact .arr l t ht ih
  | dict l k t ht _ ih => exact .dict l k t ht ih
  | stream l b k t ht _ ih => exact .stream l b k t ht ih

section
variable {α : Type} (view : Obj → α) (f : Nat × Nat → Tree α)

theorem treeItems_eq : ∀ l : List Obj, treeItems view f l = l.map (treeOf view f)
  | [] => rfl
  | o :: os => by rw [treeItems, treeItems_eq os, List.map_cons]

theorem treeEntries_eq : ∀ l : List (Bytes × Obj), treeEntries view f l = l.map fun x => (x.1, treeOf view f x.2)
  | [] => rfl
  | (k, o) :: os => by rw [treeEntries, treeEntries_eq os, List.map_cons]

theorem shows_of_mentions {r : Nat × Nat} {o : Obj} (h : Mentions r o) : Shows (f r) (treeOf view f o) := by
  induction h with
  | ref => exact .here
  | arr l o ho _ ih =>
    rw [treeOf, treeItems_eq]
    exact .arr _ _ (List.mem_map_of_mem ho) ih
  | dict l k o ho _ ih =>
    rw [treeOf, treeEntries_eq]
    exact .dict _ k _ (List.mem_map.mpr ⟨_, ho, rfl⟩) ih

theorem showsS_of_mentions {r : Nat × Nat} {o : SObj} (h : MentionsS r o) : Shows (f r) (treeOfS view f o) := by
  cases o with
  | direct o => exact shows_of_mentions view f h
  | stream d b =>
    cases h with
    | dict _ k o ho h =>
      rw [treeOfS, treeEntries_eq]
      exact .stream _ b k _ (List.mem_map.mpr ⟨_, ho, rfl⟩) (shows_of_mentions view f h)

theorem mentions_of_shows {x t : Tree α} (h : Shows x t) : ∀ o, t = treeOf view f o → ∃ r, Mentions r o ∧ (x = f r ∨ Shows x (f r)) := by
  induction h with
  | here =>
    intro o ho
    cases o with
    | ref n g => rw [treeOf] at ho; injection ho with ho; exact ⟨(n, g), .ref (r := (n, g)), .inl ho⟩
    | _ => rw [treeOf] at ho; cases ho
  | ref t h _ =>
    intro o ho
    cases o with
    | ref n g => rw [treeOf] at ho; injection ho with ho; exact ⟨(n, g), .ref (r := (n, g)), .inr (ho ▸ h)⟩
    | _ => rw [treeOf] at ho; cases ho
  | arr l t ht _ ih =>
    intro o ho
    cases o with
    | arr os =>
      rw [treeOf, treeItems_eq] at ho
      injection ho with ho
      rw [ho] at ht
      obtain ⟨o, hm, hot⟩ := List.mem_map.mp ht
      obtain ⟨r, h1, h2⟩ := ih o hot.symm
      exact ⟨r, .arr os o hm h1, h2⟩
    | _ => rw [treeOf] at ho; cases ho
  | dict l k t ht _ ih =>
    intro o ho
    cases o with
    | dict os =>
      rw [treeOf, treeEntries_eq] at ho
      injection ho with ho
      rw [ho] at ht
      obtain ⟨o, hm, hot⟩ := List.mem_map.mp ht
      injection hot with hk hot
      obtain ⟨r, h1, h2⟩ := ih o.2 hot.symm
      exact ⟨r, .dict os o.1 o.2 hm h1, h2⟩
    | _ => rw [treeOf] at ho; cases ho
  | stream l b k t ht _ ih =>
    intro o ho
    cases o <;> rw [treeOf] at ho <;> cases ho

theorem mentions_of_showsS {x : Tree α} {o : SObj} (h : Shows x (treeOfS view f o)) :
    ∃ r, MentionsS r o ∧ (x = f r ∨ Shows x (f r)) := by
  cases o with
  | direct o => exact mentions_of_shows view f h o rfl
  | stream d b =>
    rw [treeOfS] at h
    cases h with
    | stream l b k t ht h =>
      obtain ⟨r, h1, h2⟩ := mentions_of_shows view f (Shows.dict _ k t ht h) (.dict d) (by rw [treeOf])
      exact ⟨r, h1, h2⟩

theorem seen_shows (s : WSection) {r : Nat × Nat} (h : FromTrailer s r) : ∀ j, ∃ k, Shows (behind view s j r) (.dict (seen view s k)) := by
  induction h with
  | trailer r h => intro j; exact ⟨j, shows_of_mentions view (behind view s j) h⟩
  | object r q _ h ih =>
    intro j
    obtain ⟨k, hk⟩ := ih (j + 1)
    exact ⟨k, (showsS_of_mentions view (behind view s j) h).trans hk⟩

theorem behind_shows (s : WSection) {x : Tree α} : ∀ k r, FromTrailer s r → Shows x (behind view s k r) →
    ∃ q j, FromTrailer s q ∧ x = behind view s j q := by
  intro k
  induction k with
  | zero => intro r _ h; cases h
  | succ k ih =>
    intro r hr h
    rw [behind] at h
    obtain ⟨q, h1, h2⟩ := mentions_of_showsS view _ h
    have hq := FromTrailer.object r q hr h1
    rcases h2 with h2 | h2
    · exact ⟨q, k, hq, h2⟩
    · exact ih q hq h2

theorem shows_seen (s : WSection) {x : Tree α} {k : Nat} (h : Shows x (.dict (seen view s k))) :
    ∃ q j, FromTrailer s q ∧ x = behind view s j q := by
  obtain ⟨r, h1, h2⟩ := mentions_of_shows view (behind view s k) h (.dict s.trailer) (by rw [treeOf]; rfl)
  rcases h2 with h2 | h2
  · exact ⟨r, k, .trailer r h1, h2⟩
  · exact behind_shows view s k r (.trailer r h1) h2

end

/-- Two documents that look the same both refer to a missing object or both do not. -/
theorem no_null_of_seen {s t : WSection} (h : ∀ k, seen (fun o => match o with | .null => true | _ => false) t k =
      seen (fun o => match o with | .null => true | _ => false) s k)
    (hn : ∀ r, FromTrailer s r → objectAt s r ≠ .direct .null) : ∀ r, FromTrailer t r → objectAt t r ≠ .direct .null := by
  intro r hr hnull
  obtain ⟨k, hk⟩ := seen_shows (fun o => match o with | .null => true | _ => false) t hr 1
  rw [h k] at hk
  obtain ⟨q, j, hq, hx⟩ := shows_seen _ s hk
  apply hn q hq
  rw [behind, hnull, treeOfS, treeOf] at hx
  cases j with
  | zero => rw [behind] at hx; cases hx
  | succ j =>
    rw [behind] at hx
    cases ho : objectAt s q with
    | stream d b => rw [ho, treeOfS] at hx; cases hx
    | direct o =>
      rw [ho, treeOfS] at hx
      cases o with
      | null => rfl
      | _ => rw [treeOf] at hx; exact absurd hx (by simp)

end VPdf
