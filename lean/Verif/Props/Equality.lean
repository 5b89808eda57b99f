import Verif.Lemmas.Compare
/-
  C29 Object equality is an equivalence relation that holds exactly for same type and content.
-/
namespace VPdf
open Spec

/-- **C29**, for all objects without exception: objects of the same type and content compare equal. -/
theorem C29_same (objs : Objects) (a b : Obj) (h : Same a b) : eqObj objs a b = .ok true := by
  rcases eqObj_right objs a b (same_comparable h) with ⟨h1, _⟩ | ⟨_, h2⟩
  · exact h1
  · exact absurd h h2

/-- **C29**: comparison is reflexive. -/
theorem C29_refl (objs : Objects) (a : Obj) : eqObj objs a a = .ok true := C29_same objs a a (same_refl a)

/-- **C29**, partial: comparison succeeds and its outcome is "same type and content".  Missing: pairs where a direct object
meets a reference or an integer meets a real, see the counterexamples. -/
theorem C29_exact_partial (objs : Objects) (a b : Obj) (hc : comparable a b = true) :
    ∃ r, eqObj objs a b = .ok r ∧ (r = true ↔ Same a b) := by
  rcases eqObj_right objs a b hc with ⟨h1, h2⟩ | ⟨h1, h2⟩
  · exact ⟨true, h1, by simp [h2]⟩
  · exact ⟨false, h1, by simp [h2]⟩

/-- **C29**, partial: symmetry. -/
theorem C29_symm_partial (objs : Objects) (a b : Obj) (hc : comparable a b = true) : eqObj objs a b = eqObj objs b a := by
  rcases eqObj_right objs a b hc with ⟨h1, h2⟩ | ⟨h1, h2⟩ <;>
    rcases eqObj_right objs b a ((comparable_symm b a).trans hc) with ⟨h3, h4⟩ | ⟨h3, h4⟩
  · rw [h1, h3]
  · exact absurd (same_symm h2) h4
  · exact absurd (same_symm h4) h2
  · rw [h1, h3]

/-- **C29**, partial: transitivity. -/
theorem C29_trans_partial (objs : Objects) (a b c : Obj) (hab : comparable a b = true) (hbc : comparable b c = true)
    (h1 : eqObj objs a b = .ok true) (h2 : eqObj objs b c = .ok true) : eqObj objs a c = .ok true := by
  rcases eqObj_right objs a b hab with ⟨_, s1⟩ | ⟨e, _⟩
  · rcases eqObj_right objs b c hbc with ⟨_, s2⟩ | ⟨e, _⟩
    · exact C29_same objs a c (same_trans s1 s2)
    · rw [e] at h2; cases h2
  · rw [e] at h1; cases h1

/-- **C29**, keys: in the order of the keys, same entries mean same keys and same values. -/
theorem C29_entries (xs ys : List (Bytes × Obj)) (h : SameEntries xs ys) (k : Bytes) :
    (mapFind k xs = none ∧ mapFind k ys = none) ∨
    ∃ a b, mapFind k xs = some a ∧ mapFind k ys = some b ∧ Same a b := by
  induction xs generalizing ys with
  | nil => cases h; exact .inl ⟨rfl, rfl⟩
  | cons e xs ih =>
    cases h with
    | cons k' x y _ ys hx t =>
      rw [mapFind, mapFind]
      by_cases hk : k = k'
      · rw [if_pos (by simpa using hk), if_pos (by simpa using hk)]
        exact .inr ⟨x, y, rfl, rfl, hx⟩
      · rw [if_neg (by simpa using hk), if_neg (by simpa using hk)]
        exact ih ys t

/-- Two dictionaries with arrays, numbers, strings and references. -/
def dictA : Obj := .dict [(b! "K", .arr [.int 5, .real 150 2, .lit (b! "x")]), (b! "R", .ref 7 0)]
def dictB : Obj := .dict [(b! "K", .arr [.int 5, .real 15 1, .hex (b! "x")]), (b! "R", .ref 7 0)]
def dictC : Obj := .dict [(b! "K", .arr [.int 5, .real 15 1, .hex (b! "x")]), (b! "R", .ref 8 0)]

example : comparable dictA dictB = true ∧ comparable dictB dictC = true := ⟨rfl, rfl⟩
example : eqObj [] dictA dictB = .ok true ∧ eqObj [] dictB dictC = .ok false := ⟨rfl, rfl⟩
example : Same dictA dictB :=
  .dict _ _ (.cons _ _ _ _ _ (.arr _ _ (.cons _ _ _ _ (.int 5) (.cons _ _ _ _ (.real _ _ _ _ (by decide))
    (.cons _ _ _ _ (.litHex _) .nil)))) (.cons _ _ _ _ _ (.ref 7 0) .nil))

/-- **C29** fails: whenever a number refers to an integer, the integer equals the reference but the reference does not equal
the integer, so comparison is not symmetric, and objects of different types compare equal. -/
theorem C29_reference_counterexample (objs : Objects) (n g : Nat) (i : Int) (h : getIndirect objs n g = .direct (.int i)) :
    eqObj objs (.int i) (.ref n g) = .ok true ∧ eqObj objs (.ref n g) (.int i) = .ok false ∧ ¬Same (.int i) (.ref n g) := by
  refine ⟨?_, rfl, by intro h; cases h⟩
  have : target objs (.ref n g) = .ok (.direct (.int i)) := by
    rw [target, show objs.length + 2 = (objs.length + 1) + 1 from rfl, deref, if_neg (by simp), h, deref]
    intro _ _ h; cases h
  rw [eqObj, this, ok_bind]
  simp

example : getIndirect [((7, 0), .direct (.int 5))] 7 0 = .direct (.int 5) := rfl

/-- **C29** fails: an integer equals every real that is cut off to it, and 1 = 1.5, 1 = 1.2 although 1.5 ≠ 1.2 and
1.5 ≠ 1. -/
theorem C29_number_counterexample (objs : Objects) :
    eqObj objs (.int 1) (.real 15 1) = .ok true ∧ eqObj objs (.real 15 1) (.int 1) = .ok false ∧
    eqObj objs (.int 1) (.real 12 1) = .ok true ∧ eqObj objs (.real 15 1) (.real 12 1) = .ok false := by
  have h : ∀ m, target objs (.real m 1) = .ok (.direct (.real m 1)) := fun m => target_direct objs _ (by intro n g h; cases h)
  have h' : target objs (.int 1) = .ok (.direct (.int 1)) := target_direct objs _ (by intro n g h; cases h)
  refine ⟨?_, ?_, ?_, ?_⟩ <;> rw [eqObj] <;> simp only [h, h', ok_bind] <;> rfl

/-- **C29** fails: two references to the same object through different numbers are different, yet both equal it. -/
theorem C29_alias_counterexample :
    let objs : Objects := [((7, 0), .direct (.int 5)), ((8, 0), .direct (.int 5))]
    eqObj objs (.int 5) (.ref 7 0) = .ok true ∧ eqObj objs (.int 5) (.ref 8 0) = .ok true ∧
    eqObj objs (.ref 7 0) (.ref 8 0) = .ok false := ⟨rfl, rfl, rfl⟩

end VPdf
