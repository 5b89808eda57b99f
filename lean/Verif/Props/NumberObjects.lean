import Verif.Lemmas.NumberObjects
import Verif.Lemmas.ObjectStream
/-
  C101: number objects.
-/
namespace VPdf
open Spec

/-- The number last set through an object is the number of all objects that stand for it, whenever they were asked for, until it is
set again through one of them. -/
theorem C101_last (before after : List NumCall) (c : NumCall) (o o' : Nat) (v : NumVal)
    (w : NumWorld) (h : List (NumCall × NumAnswer)) (hw : numCalls ⟨[], []⟩ (before ++ c :: after) = (w, h))
    (hv : GivesNumber o v (c, (numCall (numCalls ⟨[], []⟩ before).1 c).2))
    (hs : SameNumber h o o') (ha : ∀ d ∈ after, ∀ x, setThrough d = some x → ¬ SameNumber h o x) :
    ∃ p, w.cell o' = some ⟨v, p⟩ := by
  have inv := numInv_start (before ++ c :: after)
  rw [hw] at inv
  dsimp only at inv
  obtain ⟨x, p, hx, hc⟩ := gives_cell (numInv_start before) hv
  have e : w = (numCalls (numCall (numCalls ⟨[], []⟩ before).1 c).1 after).1 := by
    have := congrArg Prod.fst hw
    rw [numCalls_append] at this
    exact this.symm
  have hx' : w.objs[o]? = some x := by rw [e]; exact numCalls_obj hx
  have hcell : w.cells[x.cell]? = some ⟨v, p⟩ := by
    rw [e]
    refine numCalls_cell hc ?_
    intro d hd n y hn hy
    rw [← e] at hy
    intro eq
    exact ha d hd n hn ((inv.same o n x y hx' hy).1 eq.symm)
  refine ⟨p, ?_⟩
  have ho' : ∃ y, w.objs[o']? = some y := by
    rcases inv.known o o' hs with rfl | ⟨_, l⟩
    · exact ⟨x, hx'⟩
    · exact ⟨_, List.getElem?_eq_getElem l⟩
  obtain ⟨y, hy⟩ := ho'
  unfold NumWorld.cell
  rw [hy]
  dsimp only
  rw [← (inv.same o o' x y hx' hy).2 hs, hcell]

/-- A call changes no number, unless it sets it through one of its objects. -/
theorem C101_others (cs : List NumCall) (c : NumCall) (o : Nat) (v : NumCell)
    (hv : (numCalls ⟨[], []⟩ cs).1.cell o = some v)
    (hs : ∀ x, setThrough c = some x → ¬ SameNumber (numCalls ⟨[], []⟩ cs).2 x o) :
    (numCall (numCalls ⟨[], []⟩ cs).1 c).1.cell o = some v := by
  have inv := numInv_start cs
  generalize (numCalls ⟨[], []⟩ cs).1 = w at *
  generalize (numCalls ⟨[], []⟩ cs).2 = h at *
  unfold NumWorld.cell at hv ⊢
  cases ho : w.objs[o]? with
  | none => rw [ho] at hv; cases hv
  | some x =>
    rw [ho] at hv
    dsimp only at hv
    rw [numCall_obj ho]
    dsimp only
    refine numCall_cell hv ?_
    intro n y hn hy eq
    exact hs n hn ((inv.same n o y x hy ho).1 eq)

/-- A clone has the number of its original at that time, and is a number of its own. -/
theorem C101_clone (cs : List NumCall) (a b : Nat)
    (hb : (numCall (numCalls ⟨[], []⟩ cs).1 (.clone a)).2 = .object b) :
    (∃ v, (numCalls ⟨[], []⟩ cs).1.cell a = some v ∧ (numCall (numCalls ⟨[], []⟩ cs).1 (.clone a)).1.cell b = some v) ∧
    ∀ o, o ≠ b → ¬ SameNumber (numCalls ⟨[], []⟩ (cs ++ [.clone a])).2 o b := by
  have inv := numInv_start cs
  rw [numCalls_append]
  simp only [numCalls]
  rw [hb]
  generalize (numCalls ⟨[], []⟩ cs).1 = w at *
  generalize (numCalls ⟨[], []⟩ cs).2 = h at *
  have hskip : ∀ {o}, SameNumber (h ++ [(NumCall.clone a, NumAnswer.object b)]) o b → SameNumber h o b :=
    fun r => r.skip (by rintro x y (e | e) <;> cases e)
  simp only [numCall] at hb ⊢
  cases ha : w.objs[a]? with
  | none => rw [ha] at hb; cases hb
  | some x =>
    rw [ha] at hb
    dsimp only at hb ⊢
    cases hx : w.cells[x.cell]? with
    | none => rw [hx] at hb; cases hb
    | some v =>
      rw [hx] at hb
      simp only [NumWorld.make] at hb ⊢
      injection hb with hb
      subst hb
      refine ⟨⟨v, by simp [NumWorld.cell, ha, hx], by simp [NumWorld.cell]⟩, ?_⟩
      intro o ho r
      rcases inv.known o _ (hskip r) with e | ⟨_, l⟩
      · exact ho e
      · omega

/-- An integer is read back as it was set, through an integer object and through a real object, and written as itself. -/
theorem C101_integer (v : Int) (p : Nat) :
    NumVal.getInt (.int v) = .ok v ∧ NumVal.getReal (.int v) = .ok (v, 0) ∧ IntText v (NumCell.text ⟨.int v, p⟩) :=
  ⟨rfl, rfl, intDec_text v⟩

/-- Unsigned numbers below 2^63 − 1 likewise. -/
theorem C101_unsigned_partial (v : Nat) (p : Nat) (hv : v < 9223372036854775807) :
    NumVal.getUint (.uint v) = .ok v ∧ NumVal.getInt (.uint v) = .ok v ∧ NumVal.getReal (.uint v) = .ok (v, 0) ∧
    IntText v (NumCell.text ⟨.uint v, p⟩) := by
  have e : safeConvert .i64 .u64 (v : Int) = .ok v := by
    have r : isInRange .i64 .u64 (v : Int) = true := by
      unfold isInRange
      simp [IntTy.i64, IntTy.u64, IntTy.toUnsigned, IntTy.cast, IntTy.max]
      omega
    rw [safeConvert, if_pos r, cast_i64 v (by omega)]
  refine ⟨rfl, e, ?_, natDec_text v⟩
  simp only [NumVal.getReal]
  rw [e]; rfl

/-- 2^63 − 1 is an integer, and set as an unsigned number it cannot be read as an integer or as a real number. -/
theorem C101_unsigned_counterexample :
    NumVal.getInt (.int 9223372036854775807) = .ok 9223372036854775807 ∧
    NumVal.getInt (.uint 9223372036854775807) = .error .conversion ∧
    NumVal.getReal (.uint 9223372036854775807) = .error .conversion := by decide +kernel

/-- A real number read as an integer is without its fraction: the greatest integer not above its size, with its sign. -/
theorem C101_fraction (m t : Int) (k : Nat) (h : NumVal.getInt (.real m k) = .ok t) :
    t.natAbs * 10 ^ k ≤ m.natAbs ∧ m.natAbs < (t.natAbs + 1) * 10 ^ k ∧ (0 < t → 0 < m) ∧ (t < 0 → m < 0) ∧
    -(2 ^ 63) ≤ t ∧ t < 2 ^ 63 := by
  have hp : 0 < 10 ^ k := Nat.pow_pos (by decide)
  simp only [NumVal.getInt, realAsInt] at h
  split at h
  · rename_i c
    split at h
    · rename_i c2
      injection h with h
      subst h
      have e : (Int.tdiv m ((10 ^ k : Nat) : Int)).natAbs = m.natAbs / 10 ^ k := by
        rw [Int.natAbs_tdiv, Int.natAbs_natCast]; rfl
      rw [e]
      refine ⟨Nat.div_mul_le_self _ _, ?_, ?_, ?_, ?_, c2⟩
      · have := Nat.lt_div_mul_add (a := m.natAbs) hp
        rw [Nat.add_mul, Nat.one_mul]; exact this
      · intro h0
        by_contra hm
        have : Int.tdiv m ((10 ^ k : Nat) : Int) ≤ 0 := by
          have := Int.tdiv_nonneg (a := -m) (b := ((10 ^ k : Nat) : Int)) (by omega) (by omega)
          rw [Int.neg_tdiv] at this; omega
        omega
      · intro h0
        by_contra hm
        have := Int.tdiv_nonneg (a := m) (b := ((10 ^ k : Nat) : Int)) (by omega) (by omega)
        omega
      · by_contra hlt
        have h3 : (2 ^ 63 + 1) ≤ (Int.tdiv m ((10 ^ k : Nat) : Int)).natAbs := by omega
        rw [e] at h3
        have h4 := Nat.mul_le_mul_right (10 ^ k) h3
        have h5 := Nat.div_mul_le_self m.natAbs (10 ^ k)
        have h6 : m < 0 := by
          by_contra hm
          have := Int.tdiv_nonneg (a := m) (b := ((10 ^ k : Nat) : Int)) (by omega) (by omega)
          omega
        have h7 : ((2 ^ 63 + 1) * 10 ^ k : Nat) ≤ m.natAbs := Nat.le_trans h4 h5
        have h8 := c.1
        have h9 : ((2 ^ 63 + 1) * 10 ^ k : Nat) = 2 ^ 63 * 10 ^ k + 10 ^ k := by ring
        push_cast at h8
        zify at h7 h9 hp
        rw [abs_of_neg h6] at h7
        linarith
    · cases h
  · cases h

/-- An integral real number is read as that integer. -/
theorem C101_integral (v : Int) (k : Nat) (h1 : -(2 ^ 63) ≤ v) (h2 : v < 2 ^ 63) :
    NumVal.getInt (.real (v * (10 ^ k : Nat)) k) = .ok v := by
  have hp : (0 : Int) < (10 ^ k : Nat) := by exact_mod_cast Nat.pow_pos (by decide)
  simp only [NumVal.getInt, realAsInt]
  rw [if_pos ⟨by nlinarith, by nlinarith⟩, Int.mul_tdiv_cancel _ hp.ne', if_pos h2]

/-- 2^63 is let through to a conversion that is not defined. -/
theorem C101_limit_counterexample (k : Nat) : NumVal.getInt (.real (2 ^ 63 * (10 ^ k : Nat)) k) = .error .ub := by
  have hp : (0 : Int) < (10 ^ k : Nat) := by exact_mod_cast Nat.pow_pos (by decide)
  simp only [NumVal.getInt, realAsInt]
  rw [if_pos ⟨by nlinarith, by nlinarith⟩, Int.mul_tdiv_cancel _ hp.ne', if_neg (by decide)]

/-- A real number is written as itself, if its precision covers its digits, or if none was given and it is of common size. -/
theorem C101_text_partial (m : Int) (k p : Nat)
    (h : (0 < p ∧ k ≤ p) ∨ (p = 0 ∧ m.natAbs < 10 ^ (16 + k) ∧ (m = 0 ∨ 10 ^ k ≤ m.natAbs * 10 ^ 4))) :
    NumberText m k (NumCell.text ⟨.real m k, p⟩) := by
  unfold NumCell.text
  dsimp only
  rcases h with ⟨h0, h⟩ | ⟨h0, h1, h2⟩
  · rw [if_pos h0, fixedText_exact m h]
    refine ⟨_, _, .inr (writeReal_text _ p), ?_⟩
    rw [mul_assoc]
    congr 1
    rw [← Nat.cast_mul, pow_split h, Nat.mul_comm]
  · rw [if_neg (by omega)]
    exact shortText_common m k h1 h2

/-- In any case with a precision it is written as a number no further from it than half a unit of the last digit. -/
theorem C101_rounded (m : Int) (k p : Nat) (h0 : 0 < p) (h : p < k) :
    ∃ m', RealText m' p (NumCell.text ⟨.real m k, p⟩) ∧ 2 * |m' * (10 ^ (k - p) : Nat) - m| ≤ (10 ^ (k - p) : Nat) := by
  unfold NumCell.text
  dsimp only
  rw [if_pos h0]
  refine ⟨_, fixedText_rounded m h, ?_⟩
  obtain ⟨r1, r2⟩ := roundOff_near m.natAbs (k - p)
  generalize 10 ^ (k - p) = t at *
  unfold roundedNumber
  generalize roundOff m.natAbs (k - p) = r at *
  zify at r1 r2
  by_cases hm : m < 0
  · rw [abs_of_neg hm] at r1 r2
    rw [if_pos hm]
    have : |-(r : Int) * t - m| * 2 ≤ t := by
      rcases abs_cases (-(r : Int) * t - m) with ⟨e, _⟩ | ⟨e, _⟩ <;> rw [e] <;> linarith
    linarith
  · rw [abs_of_nonneg (not_lt.1 hm)] at r1 r2
    rw [if_neg hm]
    have : |(r : Int) * t - m| * 2 ≤ t := by
      rcases abs_cases ((r : Int) * t - m) with ⟨e, _⟩ | ⟨e, _⟩ <;> rw [e] <;> linarith
    linarith

/-- A number set through an object made with fewer digits is written as another number. -/
theorem C101_precision_counterexample (m : Int) (k p : Nat) (h0 : 0 < p) (h : p < k) (hd : ¬ ((10 ^ (k - p) : Nat) : Int) ∣ m) :
    ∃ m', RealText m' p (NumCell.text ⟨.real m k, p⟩) ∧ m' * (10 ^ k : Nat) ≠ m * (10 ^ p : Nat) := by
  unfold NumCell.text
  dsimp only
  rw [if_pos h0]
  refine ⟨_, fixedText_rounded m h, ?_⟩
  intro e
  apply hd
  rw [pow_split (Nat.le_of_lt h)] at e
  have hp : ((10 ^ p : Nat) : Int) ≠ 0 := by exact_mod_cast (Nat.pow_pos (by decide)).ne'
  refine ⟨roundedNumber m (k - p), ?_⟩
  apply mul_right_cancel₀ hp
  rw [← e, Nat.cast_mul]; ring

/-- Without a precision, great and small numbers are written with an exponent, which is no number of PDF. -/
theorem C101_exponent_counterexample (m : Int) (k : Nat) (h : 10 ^ (16 + k) ≤ m.natAbs ∨ (m ≠ 0 ∧ m.natAbs * 10 ^ 4 < 10 ^ k)) :
    ∀ m' k', ¬ NumberText m' k' (NumCell.text ⟨.real m k, 0⟩) := by
  intro m' k' t
  exact NumberText_bytes t _ (shortText_exponent m k h) rfl

/-- Setting one bit of an integer sets that bit and no other. -/
theorem C101_bit (v w : NumVal) (a : Int) (pos : Nat) (b : Bool) (hv : wholeNumber v = some a) (h : v.toggle pos b = .ok w) :
    ∃ a', wholeNumber w = some a' ∧ (∀ q, bitAt a' q = if q = pos then b else bitAt a q) ∧
      ∀ q, w.bit q = .ok (if q = pos then b else bitAt a q) := by
  have hcast : ∀ (n : Nat) q, decide (n / 2 ^ q % 2 = 1) = bitAt (n : Int) q := by
    intro n q; unfold bitAt
    congr 1
    rw [eq_iff_iff]
    have : ((n : Int) / 2 ^ q) = ((n / 2 ^ q : Nat) : Int) := by push_cast; rfl
    rw [this]; omega
  have hint : ∀ (n : Int) q, decide (n / (2 ^ q : Nat) % 2 = 1) = bitAt n q := by
    intro n q; unfold bitAt; push_cast; rfl
  have two : ∀ (n : Int) q, n / 2 ^ q % 2 = 0 ∨ n / 2 ^ q % 2 = 1 := fun n q => by omega
  have main : ∀ a : Int, ∀ q,
      bitAt (if b = true ∧ ¬ bitAt a pos = true then a + 2 ^ pos else if ¬ b = true ∧ bitAt a pos = true then a - 2 ^ pos else a) q =
        if q = pos then b else bitAt a q := by
    intro a q
    obtain ⟨f0, f1⟩ := bit_facts a pos q
    rcases two a pos with z | z
    · have z' : bitAt a pos = false := by simp [bitAt, z]
      cases b with
      | false =>
        rw [if_neg (by simp), if_neg (by simp [z'])]
        split
        · rename_i e; rw [e, z']
        · rfl
      | true => rw [if_pos (by simp [z']), f0 z]
    · have z' : bitAt a pos = true := by simp [bitAt, z]
      cases b with
      | false => rw [if_neg (by simp), if_pos (by simp [z']), f1 z]
      | true =>
        rw [if_neg (by simp [z']), if_neg (by simp)]
        split
        · rename_i e; rw [e, z']
        · rfl
  cases v with
  | real m k => cases hv
  | int n =>
    injection hv with hv; subst hv
    simp only [NumVal.toggle, NumVal.bit, ok_bind, hint] at h
    injection h with h
    subst h
    refine ⟨_, rfl, ?_, ?_⟩
    · intro q; rw [← main n q]; push_cast; rfl
    · intro q
      simp only [NumVal.bit]
      rw [hint, ← main n q]; push_cast; rfl
  | uint n =>
    injection hv with hv; subst hv
    simp only [NumVal.toggle, NumVal.bit, ok_bind, hcast] at h
    injection h with h
    have le : bitAt n pos = true → 2 ^ pos ≤ n := by
      intro hb
      rw [← hcast] at hb
      by_contra hl
      rw [Nat.div_eq_of_lt (by omega)] at hb
      simp at hb
    have ecast : ((if b = true ∧ ¬ bitAt n pos = true then n + 2 ^ pos else if ¬ b = true ∧ bitAt n pos = true then n - 2 ^ pos else n : Nat) : Int) =
        if b = true ∧ ¬ bitAt (n : Int) pos = true then (n : Int) + 2 ^ pos
        else if ¬ b = true ∧ bitAt (n : Int) pos = true then (n : Int) - 2 ^ pos else n := by
      split
      · push_cast; rfl
      · split
        · rename_i c
          rw [Nat.cast_sub (le c.2)]; push_cast; rfl
        · rfl
    subst h
    refine ⟨_, rfl, ?_, ?_⟩
    · intro q; rw [← main n q, ← ecast]
    · intro q
      simp only [NumVal.bit]
      rw [hcast, ← main n q, ← ecast]

/-! ### Cases -/

/-- A number is made as a real one, asked as an integer, set, asked again, cloned, and the clone set. -/
def numberHistory : List NumCall :=
  [.newReal 59528 2 2, .asInteger 0, .setInteger 1 600, .asReal 1, .clone 0, .setReal 3 15 1]

example : (numCalls ⟨[], []⟩ numberHistory).2.map Prod.snd = [.object 0, .object 1, .done, .object 2, .object 3, .done] := by decide +kernel

theorem numberHistory_same : SameNumber (numCalls ⟨[], []⟩ numberHistory).2 1 2 := .real _ _ (by decide +kernel)

example : ∃ p, (numCalls ⟨[], []⟩ numberHistory).1.cell 2 = some ⟨.int 600, p⟩ :=
  C101_last [.newReal 59528 2 2, .asInteger 0] [.asReal 1, .clone 0, .setReal 3 15 1] (.setInteger 1 600) 1 2 (.int 600) _ _ rfl
    (by have e : (numCall (numCalls ⟨[], []⟩ [.newReal 59528 2 2, .asInteger 0]).1 (.setInteger 1 600)).2 = .done := by decide +kernel
        rw [e]; exact .setInteger 600)
    numberHistory_same
    (by
      intro d hd x hx s
      have inv := numInv_start numberHistory
      simp only [List.mem_cons, List.not_mem_nil, or_false] at hd
      rcases hd with rfl | rfl | rfl
      · cases hx
      · cases hx
      · injection hx with hx; subst hx
        have := (inv.same 1 3 ⟨true, 0⟩ ⟨false, 1⟩ (by decide +kernel) (by decide +kernel)).2 s
        cases this)

example : NumberText 59528 2 (NumCell.text ⟨.real 59528 2, 2⟩) ∧ NumCell.text ⟨.real 59528 2, 2⟩ = b! "595.28" :=
  ⟨C101_text_partial _ _ _ (.inl ⟨by decide, by decide⟩), by decide +kernel⟩
example : NumCell.text ⟨.real 595285 3, 2⟩ = b! "595.28" ∧ NumCell.text ⟨.real 5 1, 0⟩ = b! "0.5" ∧
    NumCell.text ⟨.real (-5) 5, 0⟩ = b! "-5e-05" ∧ NumCell.text ⟨.real (10 ^ 20) 0, 2⟩ = b! "100000000000000000000.00" := by decide +kernel
example : NumVal.getInt (.real 59528 2) = .ok 595 ∧ NumVal.getInt (.real (-59999) 2) = .ok (-599) := by decide +kernel
example : NumVal.toggle (.int (-4)) 0 true = .ok (.int (-3)) ∧ NumVal.toggle (.uint 3) 1 false = .ok (.uint 1) := by decide +kernel

end VPdf
