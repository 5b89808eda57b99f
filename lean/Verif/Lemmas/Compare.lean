import Verif.Spec.Heap
import Verif.Lemmas.Parse
import Mathlib.Tactic.Ring
/-
  Comparison of objects.
-/
namespace VPdf
open Spec

theorem target_direct (objs : Objects) (o : Obj) (h : ∀ n g, o ≠ .ref n g) : target objs o = .ok (.direct o) := by
  unfold target
  rw [show objs.length + 2 = (objs.length + 1) + 1 from rfl]
  cases o <;> first | rfl | exact absurd rfl (h _ _)

theorem sameItems_length : ∀ {xs ys : List Obj}, SameItems xs ys → xs.length = ys.length
  | [], [], _ => rfl
  | _ :: xs, _ :: ys, h => by
    cases h with | cons _ _ _ _ _ h => simp [sameItems_length h]
  | [], _ :: _, h => by cases h
  | _ :: _, [], h => by cases h

theorem sameEntries_length : ∀ {xs ys : List (Bytes × Obj)}, SameEntries xs ys → xs.length = ys.length
  | [], [], _ => rfl
  | _ :: xs, _ :: ys, h => by
    cases h with | cons _ _ _ _ _ _ h => simp [sameEntries_length h]
  | [], _ :: _, h => by cases h
  | _ :: _, [], h => by cases h

/-- The outcome of a comparison is the right one. -/
def Right (r : Res Bool) (P : Prop) : Prop := (r = .ok true ∧ P) ∨ (r = .ok false ∧ ¬P)

theorem Right.yes {P : Prop} (h : P) : Right (.ok true) P := .inl ⟨rfl, h⟩
theorem Right.no {P : Prop} (h : ¬P) : Right (.ok false) P := .inr ⟨rfl, h⟩
theorem Right.beq {α : Type} [BEq α] [LawfulBEq α] {x y : α} {P : Prop} (h : x = y ↔ P) : Right (.ok (x == y)) P := by
  by_cases e : x = y
  · rw [beq_iff_eq.mpr e]; exact .yes (h.mp e)
  · rw [beq_eq_false_iff_ne.mpr e]; exact .no (fun p => e (h.mpr p))

mutual
theorem eqObj_right (objs : Objects) : ∀ a b : Obj, comparable a b = true → Right (eqObj objs a b) (Same a b)
  | .ref n g, b, hc => by
    cases b <;> try (cases hc; done)
    rename_i n' g'
    rw [eqObj]
    by_cases h1 : n = n'
    · subst h1
      by_cases h2 : g = g'
      · subst h2; simp only [beq_self_eq_true, Bool.and_self]; exact .yes (.ref n g)
      · rw [beq_eq_false_iff_ne.mpr h2, Bool.and_false]; exact .no (by intro h; cases h; exact h2 rfl)
    · rw [beq_eq_false_iff_ne.mpr h1, Bool.false_and]; exact .no (by intro h; cases h; exact h1 rfl)
  | .null, b, hc => by
    have hb : ∀ n g, b ≠ .ref n g := by rintro n g rfl; cases hc
    rw [eqObj, target_direct objs b hb, ok_bind]
    cases b <;> first | exact .yes .null | exact .no (by intro h; cases h)
  | .bool x, b, hc => by
    have hb : ∀ n g, b ≠ .ref n g := by rintro n g rfl; cases hc
    rw [eqObj, target_direct objs b hb, ok_bind]
    cases b <;> first
      | exact .no (by intro h; cases h)
      | exact .beq ⟨by rintro rfl; exact .bool x, by intro h; cases h; rfl⟩
  | .int x, b, hc => by
    have hb : ∀ n g, b ≠ .ref n g := by rintro n g rfl; cases hc
    rw [eqObj, target_direct objs b hb, ok_bind]
    cases b <;> first
      | (cases hc; done)
      | exact .no (by intro h; cases h)
      | exact .beq ⟨by rintro rfl; exact .int x, by intro h; cases h; rfl⟩
  | .real m p, b, hc => by
    have hb : ∀ n g, b ≠ .ref n g := by rintro n g rfl; cases hc
    rw [eqObj, target_direct objs b hb, ok_bind]
    cases b <;> first
      | (cases hc; done)
      | exact .no (by intro h; cases h)
      | skip
    rename_i m' p'
    refine .beq ⟨fun h => .real _ _ _ _ (by exact_mod_cast h), fun h => ?_⟩
    cases h with | real _ _ _ _ h => exact_mod_cast h
  | .name x, b, hc => by
    have hb : ∀ n g, b ≠ .ref n g := by rintro n g rfl; cases hc
    rw [eqObj, target_direct objs b hb, ok_bind]
    cases b <;> first
      | exact .no (by intro h; cases h)
      | exact .beq ⟨by rintro rfl; exact .name x, by intro h; cases h; rfl⟩
  | .lit x, b, hc => by
    have hb : ∀ n g, b ≠ .ref n g := by rintro n g rfl; cases hc
    rw [eqObj, target_direct objs b hb, ok_bind]
    cases b <;> first
      | exact .no (by intro h; cases h)
      | exact .beq ⟨by rintro rfl; exact .litLit x, by intro h; cases h; rfl⟩
      | exact .beq ⟨by rintro rfl; exact .litHex x, by intro h; cases h; rfl⟩
  | .hex x, b, hc => by
    have hb : ∀ n g, b ≠ .ref n g := by rintro n g rfl; cases hc
    rw [eqObj, target_direct objs b hb, ok_bind]
    cases b <;> first
      | exact .no (by intro h; cases h)
      | exact .beq ⟨by rintro rfl; exact .hexLit x, by intro h; cases h; rfl⟩
      | exact .beq ⟨by rintro rfl; exact .hexHex x, by intro h; cases h; rfl⟩
  | .arr xs, b, hc => by
    have hb : ∀ n g, b ≠ .ref n g := by rintro n g rfl; cases hc
    rw [eqObj, target_direct objs b hb, ok_bind]
    cases b <;> first
      | exact .no (by intro h; cases h)
      | skip
    rename_i ys
    rw [comparable] at hc
    have := eqItems_right objs xs ys hc
    dsimp only
    by_cases hl : xs.length = ys.length
    · rw [beq_iff_eq.mpr hl, if_pos rfl]
      rcases this hl with ⟨h1, h2⟩ | ⟨h1, h2⟩
      · rw [h1]; exact .yes (.arr _ _ h2)
      · rw [h1]; exact .no (by intro h; cases h; contradiction)
    · rw [if_neg (by simpa using hl)]
      refine .no ?_
      intro h; cases h with | arr _ _ h => exact hl (sameItems_length h)
  | .dict xs, b, hc => by
    have hb : ∀ n g, b ≠ .ref n g := by rintro n g rfl; cases hc
    rw [eqObj, target_direct objs b hb, ok_bind]
    cases b <;> first
      | exact .no (by intro h; cases h)
      | skip
    rename_i ys
    rw [comparable] at hc
    have := eqEntries_right objs xs ys hc
    dsimp only
    by_cases hl : xs.length = ys.length
    · rw [beq_iff_eq.mpr hl, if_pos rfl]
      rcases this hl with ⟨h1, h2⟩ | ⟨h1, h2⟩
      · rw [h1]; exact .yes (.dict _ _ h2)
      · rw [h1]; exact .no (by intro h; cases h; contradiction)
    · rw [if_neg (by simpa using hl)]
      refine .no ?_
      intro h; cases h with | dict _ _ h => exact hl (sameEntries_length h)
theorem eqItems_right (objs : Objects) : ∀ xs ys : List Obj, comparableItems xs ys = true → xs.length = ys.length →
    Right (eqItems objs xs ys) (SameItems xs ys)
  | [], [], _, _ => by rw [eqItems]; exact .yes .nil; all_goals (intros; simp_all)
  | x :: xs, y :: ys, hc, hl => by
    rw [comparableItems, Bool.and_eq_true] at hc
    rw [eqItems]
    rcases eqObj_right objs x y hc.1 with ⟨h1, h2⟩ | ⟨h1, h2⟩
    · rw [h1, ok_bind, if_pos rfl]
      rcases eqItems_right objs xs ys hc.2 (by simpa using hl) with ⟨h3, h4⟩ | ⟨h3, h4⟩
      · rw [h3]; exact .yes (.cons _ _ _ _ h2 h4)
      · rw [h3]; exact .no (by intro h; cases h; contradiction)
    · rw [h1, ok_bind]
      exact .no (by intro h; cases h; contradiction)
  | [], _ :: _, _, hl => by cases hl
  | _ :: _, [], _, hl => by cases hl
theorem eqEntries_right (objs : Objects) : ∀ xs ys : List (Bytes × Obj), comparableEntries xs ys = true →
    xs.length = ys.length → Right (eqEntries objs xs ys) (SameEntries xs ys)
  | [], [], _, _ => by rw [eqEntries]; exact .yes .nil; all_goals (intros; simp_all)
  | (k, x) :: xs, (k', y) :: ys, hc, hl => by
    rw [comparableEntries, Bool.and_eq_true] at hc
    rw [eqEntries]
    by_cases hk : k = k'
    · subst hk
      rw [if_pos (beq_self_eq_true k)]
      rcases eqObj_right objs x y hc.1 with ⟨h1, h2⟩ | ⟨h1, h2⟩
      · rw [h1, ok_bind, if_pos rfl]
        rcases eqEntries_right objs xs ys hc.2 (by simpa using hl) with ⟨h3, h4⟩ | ⟨h3, h4⟩
        · rw [h3]; exact .yes (.cons _ _ _ _ _ h2 h4)
        · rw [h3]; exact .no (by intro h; cases h; contradiction)
      · rw [h1, ok_bind]
        exact .no (by intro h; cases h; contradiction)
    · rw [if_neg (by simpa using hk)]
      exact .no (by intro h; cases h; exact hk rfl)
  | [], _ :: _, _, hl => by cases hl
  | _ :: _, [], _, hl => by cases hl
end

/-! ### `Same` is an equivalence relation -/

mutual
theorem same_refl : ∀ a : Obj, Same a a
  | .null => .null
  | .bool b => .bool b
  | .int i => .int i
  | .real m p => .real m m p p rfl
  | .name n => .name n
  | .lit v => .litLit v
  | .hex v => .hexHex v
  | .ref n g => .ref n g
  | .arr xs => .arr xs xs (sameItems_refl xs)
  | .dict xs => .dict xs xs (sameEntries_refl xs)
theorem sameItems_refl : ∀ xs : List Obj, SameItems xs xs
  | [] => .nil
  | x :: xs => .cons x x xs xs (same_refl x) (sameItems_refl xs)
theorem sameEntries_refl : ∀ xs : List (Bytes × Obj), SameEntries xs xs
  | [] => .nil
  | (k, x) :: xs => .cons k x x xs xs (same_refl x) (sameEntries_refl xs)
end

mutual
theorem same_symm : ∀ {a b : Obj}, Same a b → Same b a
  | _, _, .null => .null
  | _, _, .bool b => .bool b
  | _, _, .int i => .int i
  | _, _, .real m n p q h => .real n m q p h.symm
  | _, _, .name n => .name n
  | _, _, .litLit v => .litLit v
  | _, _, .litHex v => .hexLit v
  | _, _, .hexLit v => .litHex v
  | _, _, .hexHex v => .hexHex v
  | _, _, .ref n g => .ref n g
  | _, _, .arr xs ys h => .arr ys xs (sameItems_symm h)
  | _, _, .dict xs ys h => .dict ys xs (sameEntries_symm h)
theorem sameItems_symm : ∀ {xs ys : List Obj}, SameItems xs ys → SameItems ys xs
  | _, _, .nil => .nil
  | _, _, .cons x y xs ys h t => .cons y x ys xs (same_symm h) (sameItems_symm t)
theorem sameEntries_symm : ∀ {xs ys : List (Bytes × Obj)}, SameEntries xs ys → SameEntries ys xs
  | _, _, .nil => .nil
  | _, _, .cons k x y xs ys h t => .cons k y x ys xs (same_symm h) (sameEntries_symm t)
end

theorem real_trans {m n l : Int} {p q r : Nat} (h1 : m * 10 ^ q = n * 10 ^ p) (h2 : n * 10 ^ r = l * 10 ^ q) :
    m * 10 ^ r = l * 10 ^ p := by
  have h : (m * 10 ^ r) * (10 : Int) ^ q = (l * 10 ^ p) * (10 : Int) ^ q := by
    calc (m * 10 ^ r) * (10 : Int) ^ q = (m * 10 ^ q) * 10 ^ r := by ring
      _ = (n * 10 ^ r) * 10 ^ p := by rw [h1]; ring
      _ = (l * 10 ^ p) * (10 : Int) ^ q := by rw [h2]; ring
  exact Int.eq_of_mul_eq_mul_right (Int.ne_of_gt (Int.pow_pos (by decide))) h

mutual
theorem same_trans : ∀ {a b c : Obj}, Same a b → Same b c → Same a c
  | _, _, _, .null, h => h
  | _, _, _, .bool _, h => h
  | _, _, _, .int _, h => h
  | _, _, _, .real m n p q h1, h => by
    cases h with | real _ l _ r h2 => exact .real _ _ _ _ (real_trans h1 h2)
  | _, _, _, .name _, h => h
  | _, _, _, .litLit _, h => h
  | _, _, _, .litHex v, h => by cases h <;> constructor
  | _, _, _, .hexLit v, h => by cases h <;> constructor
  | _, _, _, .hexHex _, h => h
  | _, _, _, .ref _ _, h => h
  | _, _, _, .arr xs ys h1, h => by
    cases h with | arr _ zs h2 => exact .arr _ _ (sameItems_trans h1 h2)
  | _, _, _, .dict xs ys h1, h => by
    cases h with | dict _ zs h2 => exact .dict _ _ (sameEntries_trans h1 h2)
theorem sameItems_trans : ∀ {xs ys zs : List Obj}, SameItems xs ys → SameItems ys zs → SameItems xs zs
  | _, _, _, .nil, h => h
  | _, _, _, .cons x y xs ys h t, h' => by
    cases h' with | cons _ z _ zs h2 t2 => exact .cons _ _ _ _ (same_trans h h2) (sameItems_trans t t2)
theorem sameEntries_trans : ∀ {xs ys zs : List (Bytes × Obj)}, SameEntries xs ys → SameEntries ys zs → SameEntries xs zs
  | _, _, _, .nil, h => h
  | _, _, _, .cons k x y xs ys h t, h' => by
    cases h' with | cons _ _ z _ zs h2 t2 => exact .cons _ _ _ _ _ (same_trans h h2) (sameEntries_trans t t2)
end

/-! ### Same objects are comparable -/

mutual
theorem same_comparable : ∀ {a b : Obj}, Same a b → comparable a b = true
  | _, _, .null => rfl
  | _, _, .bool _ => rfl
  | _, _, .int _ => rfl
  | _, _, .real _ _ _ _ _ => rfl
  | _, _, .name _ => rfl
  | _, _, .litLit _ => rfl
  | _, _, .litHex _ => rfl
  | _, _, .hexLit _ => rfl
  | _, _, .hexHex _ => rfl
  | _, _, .ref _ _ => rfl
  | _, _, .arr _ _ h => by rw [comparable]; exact sameItems_comparable h
  | _, _, .dict _ _ h => by rw [comparable]; exact sameEntries_comparable h
theorem sameItems_comparable : ∀ {xs ys : List Obj}, SameItems xs ys → comparableItems xs ys = true
  | _, _, .nil => rfl
  | _, _, .cons x y xs ys h t => by rw [comparableItems, same_comparable h, sameItems_comparable t]; rfl
theorem sameEntries_comparable : ∀ {xs ys : List (Bytes × Obj)}, SameEntries xs ys → comparableEntries xs ys = true
  | _, _, .nil => rfl
  | _, _, .cons k x y xs ys h t => by rw [comparableEntries, same_comparable h, sameEntries_comparable t]; rfl
end

mutual
theorem comparable_symm : ∀ a b : Obj, comparable a b = comparable b a
  | .ref _ _, b => by cases b <;> rfl
  | .null, b => by cases b <;> rfl
  | .bool _, b => by cases b <;> rfl
  | .int _, b => by cases b <;> rfl
  | .real _ _, b => by cases b <;> rfl
  | .name _, b => by cases b <;> rfl
  | .lit _, b => by cases b <;> rfl
  | .hex _, b => by cases b <;> rfl
  | .arr xs, b => by
    cases b <;> first | rfl | skip
    rename_i ys
    rw [comparable, comparable]; exact comparableItems_symm xs ys
  | .dict xs, b => by
    cases b <;> first | rfl | skip
    rename_i ys
    rw [comparable, comparable]; exact comparableEntries_symm xs ys
theorem comparableItems_symm : ∀ xs ys : List Obj, comparableItems xs ys = comparableItems ys xs
  | [], [] => rfl
  | [], _ :: _ => rfl
  | _ :: _, [] => rfl
  | x :: xs, y :: ys => by rw [comparableItems, comparableItems, comparable_symm x y, comparableItems_symm xs ys]
theorem comparableEntries_symm : ∀ xs ys : List (Bytes × Obj), comparableEntries xs ys = comparableEntries ys xs
  | [], [] => rfl
  | [], _ :: _ => rfl
  | _ :: _, [] => rfl
  | (_, x) :: xs, (_, y) :: ys => by
    rw [comparableEntries, comparableEntries, comparable_symm x y, comparableEntries_symm xs ys]
end

/-! ### Hash values -/

mutual
theorem hash_same (H : StdHash) (hr : ∀ m n p q, m * 10 ^ q = n * 10 ^ p → H.hreal m p = H.hreal n q) :
    ∀ {a b : Obj}, Same a b → hashObj H a = hashObj H b
  | _, _, .null => rfl
  | _, _, .bool _ => rfl
  | _, _, .int _ => rfl
  | _, _, .real m n p q h => by rw [hashObj, hashObj, hashLeaf, hashLeaf]; exact hr m n p q h; all_goals simp
  | _, _, .name _ => rfl
  | _, _, .litLit _ => rfl
  | _, _, .litHex _ => rfl
  | _, _, .hexLit _ => rfl
  | _, _, .hexHex _ => rfl
  | _, _, .ref _ _ => rfl
  | _, _, .arr _ _ h => by rw [hashObj, hashObj]; exact hashItems_same H hr h 0
  | _, _, .dict _ _ h => by rw [hashObj, hashObj]; exact hashEntries_same H hr h 0
theorem hashItems_same (H : StdHash) (hr : ∀ m n p q, m * 10 ^ q = n * 10 ^ p → H.hreal m p = H.hreal n q) :
    ∀ {xs ys : List Obj}, SameItems xs ys → ∀ r, hashItems H r xs = hashItems H r ys
  | _, _, .nil, _ => rfl
  | _, _, .cons x y xs ys h t, r => by rw [hashItems, hashItems, hash_same H hr h]; exact hashItems_same H hr t _
theorem hashEntries_same (H : StdHash) (hr : ∀ m n p q, m * 10 ^ q = n * 10 ^ p → H.hreal m p = H.hreal n q) :
    ∀ {xs ys : List (Bytes × Obj)}, SameEntries xs ys → ∀ r, hashEntries H r xs = hashEntries H r ys
  | _, _, .nil, _ => rfl
  | _, _, .cons k x y xs ys h t, r => by rw [hashEntries, hashEntries, hash_same H hr h]; exact hashEntries_same H hr t _
end

end VPdf
