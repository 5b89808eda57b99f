import Verif.Model.Date
import Verif.Lemmas.Grammar
import Verif.Spec.Date
import Mathlib.Tactic.Tauto
namespace VPdf
open Spec

/-! ### The regular expression is deterministic -/

/-- One field as a function. -/
def fieldFn : Bytes → Option (Bytes × Bytes)
  | [] => some ([], [])
  | [c] => if isNumeric c then some ([c], []) else none
  | c :: d :: r => if isNumeric c && isNumeric d then some ([c, d], r) else none

theorem run_dateField (s : Bytes) : dateField.run s = (fieldFn s).toList.map fun x => ([x.1], x.2) := by
  match s with
  | [] => simp [dateField, Re.run, Re.digit, fieldFn]
  | [c] => by_cases h : isNumeric c = true <;> simp [dateField, Re.run, Re.digit, fieldFn, h]
  | c :: d :: r =>
    by_cases h : isNumeric c = true <;> by_cases h2 : isNumeric d = true <;>
      simp [dateField, Re.run, Re.digit, fieldFn, h, h2]
    have : r.length + 1 + 1 - r.length = 2 := by omega
    rw [this]; rfl

/-- `n` fields as a function. -/
def fieldsFn : Nat → Bytes → Option (List Bytes × Bytes)
  | 0, s => some ([], s)
  | n + 1, s => (fieldFn s).bind fun x => (fieldsFn n x.2).map fun y => (x.1 :: y.1, y.2)

theorem run_fields (n : Nat) (s : Bytes) : (Re.seqs (List.replicate n dateField)).run s = (fieldsFn n s).toList := by
  induction n generalizing s with
  | zero => simp [Re.seqs, Re.run, fieldsFn]
  | succ n ih =>
    rw [List.replicate_succ, Re.seqs, Re.run, run_dateField, fieldsFn]
    cases fieldFn s with
    | none => rfl
    | some x =>
      simp only [Option.toList_some, List.map_cons, List.map_nil, List.flatMap_cons, List.flatMap_nil, List.append_nil, ih,
        Option.bind_some]
      cases fieldsFn n x.2 <;> simp

/-- The year as a function. -/
def yearFn : Bytes → Option (Bytes × Bytes)
  | a :: b :: c :: d :: r => if isNumeric a && isNumeric b && isNumeric c && isNumeric d then some ([a, b, c, d], r) else none
  | _ => none

theorem run_year (s : Bytes) : (Re.cap (.seqs (List.replicate 4 .digit))).run s = (yearFn s).toList.map fun x => ([x.1], x.2) := by
  match s with
  | [] => simp [Re.run, Re.digit, Re.seqs, List.replicate, yearFn]
  | [a] => by_cases h : isNumeric a = true <;> simp [Re.run, Re.digit, Re.seqs, List.replicate, yearFn, h]
  | [a, b] =>
    by_cases h : isNumeric a = true <;> by_cases h2 : isNumeric b = true <;>
      simp [Re.run, Re.digit, Re.seqs, List.replicate, yearFn, h, h2]
  | [a, b, c] =>
    by_cases h : isNumeric a = true <;> by_cases h2 : isNumeric b = true <;> by_cases h3 : isNumeric c = true <;>
      simp [Re.run, Re.digit, Re.seqs, List.replicate, yearFn, h, h2, h3]
  | a :: b :: c :: d :: r =>
    have : r.length + 1 + 1 + 1 + 1 - r.length = 4 := by omega
    by_cases h : isNumeric a = true <;> by_cases h2 : isNumeric b = true <;> by_cases h3 : isNumeric c = true <;>
      by_cases h4 : isNumeric d = true <;>
      simp [Re.run, Re.digit, Re.seqs, List.replicate, yearFn, h, h2, h3, h4, this]

/-- The minutes of the time zone as a function. -/
def zoneMinutes : Bytes → Option Bytes
  | [] => some []
  | [q] => if q = 39 then some [] else none
  | [a, b] => if isNumeric a && isNumeric b then some [a, b] else none
  | [a, b, c] =>
    if a = 39 && isNumeric b && isNumeric c then some [b, c]
    else if isNumeric a && isNumeric b && c = 39 then some [a, b] else none
  | [a, b, c, d] => if a = 39 && isNumeric b && isNumeric c && d = 39 then some [b, c] else none
  | _ => none

/-- The time zone as a function. -/
def zoneFn : Bytes → Option (List Bytes)
  | [] => some [[], [], []]
  | [c] => if c = 90 ∨ c = 43 ∨ c = 45 then some [[c], [], []] else none
  | c :: h :: i :: u =>
    if (c = 90 ∨ c = 43 ∨ c = 45) ∧ isNumeric h = true ∧ isNumeric i = true then (zoneMinutes u).map fun m => [[c], [h, i], m]
    else none
  | _ => none

theorem num39 : isNumeric 39 = false := by decide

theorem match_minutes (u : Bytes) :
    (Re.seqs [.opt (.chr 0x27), dateOffset, .opt (.chr 0x27), .eol]).matchWhole u = (zoneMinutes u).map fun m => [m] := by
  match u with
  | [] => simp [Re.matchWhole, Re.run, Re.chr, Re.digit, Re.seqs, dateOffset, zoneMinutes]
  | [q] =>
    by_cases hq : q = 39
    · subst hq; simp [Re.matchWhole, Re.run, Re.chr, Re.digit, Re.seqs, dateOffset, zoneMinutes, num39]
    · by_cases hn : isNumeric q = true <;>
        simp [Re.matchWhole, Re.run, Re.chr, Re.digit, Re.seqs, dateOffset, zoneMinutes, hq, hn]
  | [a, b] =>
    by_cases hq : a = 39
    · subst hq
      by_cases hn : isNumeric b = true <;>
        simp [Re.matchWhole, Re.run, Re.chr, Re.digit, Re.seqs, dateOffset, zoneMinutes, num39, hn]
    · by_cases hn : isNumeric a = true <;> by_cases hm : isNumeric b = true <;>
        simp [Re.matchWhole, Re.run, Re.chr, Re.digit, Re.seqs, dateOffset, zoneMinutes, hq, hn, hm]
  | [a, b, c] =>
    by_cases hq : a = 39
    · subst hq
      by_cases hn : isNumeric b = true <;> by_cases hm : isNumeric c = true <;>
        simp [Re.matchWhole, Re.run, Re.chr, Re.digit, Re.seqs, dateOffset, zoneMinutes, num39, hn, hm]
    · by_cases hn : isNumeric a = true <;> by_cases hm : isNumeric b = true <;> by_cases hc : c = 39 <;>
        simp [Re.matchWhole, Re.run, Re.chr, Re.digit, Re.seqs, dateOffset, zoneMinutes, hq, hn, hm, hc]
  | [a, b, c, d] =>
    by_cases hq : a = 39
    · subst hq
      by_cases hn : isNumeric b = true <;> by_cases hm : isNumeric c = true <;> by_cases hc : d = 39 <;>
        simp [Re.matchWhole, Re.run, Re.chr, Re.digit, Re.seqs, dateOffset, zoneMinutes, num39, hn, hm, hc]
    · by_cases hn : isNumeric a = true <;> by_cases hm : isNumeric b = true <;> by_cases hc : c = 39 <;>
        simp [Re.matchWhole, Re.run, Re.chr, Re.digit, Re.seqs, dateOffset, zoneMinutes, hq, hn, hm, hc]
  | a :: b :: c :: d :: e :: r =>
    by_cases hq : a = 39
    · subst hq
      by_cases hn : isNumeric b = true <;> by_cases hm : isNumeric c = true <;> by_cases hc : d = 39 <;>
        simp [Re.matchWhole, Re.run, Re.chr, Re.digit, Re.seqs, dateOffset, zoneMinutes, num39, hn, hm, hc]
    · by_cases hn : isNumeric a = true <;> by_cases hm : isNumeric b = true <;> by_cases hc : c = 39 <;>
        simp [Re.matchWhole, Re.run, Re.chr, Re.digit, Re.seqs, dateOffset, zoneMinutes, hq, hn, hm, hc]

/-- The first whole match behind a deterministic beginning. -/
theorem find_bind {α : Type} (o : Option α) (l : α → List (List Bytes × Bytes)) (g : α → List Bytes → List Bytes) :
    ((o.toList.flatMap fun x => (l x).map fun y => (g x y.1, y.2)).find? (·.2.isEmpty)).map (·.1) =
      o.bind fun x => (((l x).find? (·.2.isEmpty)).map (·.1)).map (g x) := by
  cases o with
  | none => rfl
  | some x =>
    simp only [Option.toList_some, List.flatMap_cons, List.flatMap_nil, List.append_nil, List.find?_map, Option.bind_some]
    have : ((fun x => x.2.isEmpty) ∘ fun y : List Bytes × Bytes => (g x y.1, y.2)) = fun x => x.2.isEmpty := rfl
    rw [this]
    cases (l x).find? (·.2.isEmpty) <;> rfl

theorem match_seq {a b : Re} {s : Bytes} {o : Option (List Bytes × Bytes)} (h : a.run s = o.toList) :
    (Re.seq a b).matchWhole s = o.bind fun x => (b.matchWhole x.2).map (x.1 ++ ·) := by
  rw [Re.matchWhole, Re.run, h]
  exact find_bind o (fun x => b.run x.2) (fun x y => x.1 ++ y)

theorem match_zone (r : Bytes) : dateZone.matchWhole r = zoneFn r := by
  have hoff : ∀ u, dateOffset.run u = (match u with
      | [] => some ([[]], [])
      | [_] => none
      | h :: i :: u => if isNumeric h && isNumeric i then some ([[h, i]], u) else none : Option (List Bytes × Bytes)).toList := by
    intro u
    match u with
    | [] => simp [Re.run, Re.digit, dateOffset]
    | [h] => by_cases hn : isNumeric h = true <;> simp [Re.run, Re.digit, dateOffset, hn]
    | h :: i :: u =>
      have : u.length + 1 + 1 - u.length = 2 := by omega
      by_cases hn : isNumeric h = true <;> by_cases hm : isNumeric i = true <;>
        simp [Re.run, Re.digit, dateOffset, hn, hm, this]
  have hsign : ∀ u, (Re.cap (.alt (.cls fun c => c == 0x5A || c == 0x2B || c == 0x2D) .eol)).run u = (match u with
      | [] => some ([[]], [])
      | c :: u => if c = 90 ∨ c = 43 ∨ c = 45 then some ([[c]], u) else none : Option (List Bytes × Bytes)).toList := by
    intro u
    match u with
    | [] => simp [Re.run]
    | c :: u =>
      have : u.length + 1 - u.length = 1 := by omega
      by_cases hn : c = 90 ∨ c = 43 ∨ c = 45
      · rcases hn with rfl | rfl | rfl <;> simp [Re.run, this]
      · have hn' : ¬ ((c = 90 ∨ c = 43) ∨ c = 45) := fun h => hn (by tauto)
        simp [Re.run, hn, hn']
  have hx : ∀ u, (Re.seqs [dateOffset, .opt (.chr 0x27), dateOffset, .opt (.chr 0x27), .eol]).matchWhole u = _ :=
    fun u => match_seq (hoff u) (b := Re.seqs [.opt (.chr 0x27), dateOffset, .opt (.chr 0x27), .eol])
  rw [dateZone, Re.seqs, match_seq (hsign r)]
  match r with
  | [] => simp [hx, match_minutes, zoneMinutes, zoneFn]
  | [c] =>
    by_cases hn : c = 90 ∨ c = 43 ∨ c = 45 <;> simp [hx, match_minutes, zoneMinutes, zoneFn, hn]
  | [c, h] =>
    by_cases hn : c = 90 ∨ c = 43 ∨ c = 45 <;> simp [hx, match_minutes, zoneMinutes, zoneFn, hn]
  | c :: h :: i :: u =>
    by_cases hn : c = 90 ∨ c = 43 ∨ c = 45 <;> by_cases hh : isNumeric h = true <;> by_cases hi : isNumeric i = true <;>
      simp [hx, match_minutes, zoneFn, hn, hh, hi] <;> (cases zoneMinutes u <;> rfl)

/-- What the expression finds behind the mark. -/
def bodyFn (s : Bytes) : Option (List Bytes) :=
  (yearFn s).bind fun y => (fieldsFn 5 y.2).bind fun f => (zoneFn f.2).map fun z => y.1 :: (f.1 ++ z)

/-- The expression without the optional mark. -/
def dateBody : Re := .seq (.cap (.seqs (List.replicate 4 .digit))) (.seq (.seqs (List.replicate 5 dateField)) dateZone)

theorem match_body (s : Bytes) : dateBody.matchWhole s = bodyFn s := by
  have h := run_year s
  have h' : (Re.cap (.seqs (List.replicate 4 .digit))).run s = ((yearFn s).map fun x => ([x.1], x.2)).toList := by
    rw [h]; cases yearFn s <;> rfl
  rw [dateBody, match_seq h', bodyFn]
  cases yearFn s with
  | none => rfl
  | some y =>
    simp only [Option.map_some, Option.bind_some]
    rw [match_seq (run_fields 5 y.2)]
    cases fieldsFn 5 y.2 with
    | none => rfl
    | some f =>
      simp only [Option.bind_some, match_zone]
      cases zoneFn f.2 <;> rfl

theorem match_regex (s : Bytes) : dateRegex.matchWhole s =
    match s with
    | 0x44 :: 0x3A :: r => bodyFn r
    | _ => bodyFn s := by
  have hno : ∀ c r, isNumeric c = false → (dateBody.run (c :: r)) = [] := by
    intro c r hc
    rw [dateBody, Re.run, run_year]
    have : yearFn (c :: r) = none := by
      match r with
      | [] => rfl
      | [_] => rfl
      | [_, _] => rfl
      | a :: b :: d :: r => simp [yearFn, hc]
    rw [this]; rfl
  have e : ∀ s, dateRegex.run s = ((Re.opt (.seq (.chr 0x44) (.chr 0x3A))).run s).flatMap
      fun x => (dateBody.run x.2).map fun y => (x.1 ++ y.1, y.2) := fun s => rfl
  have plain : ∀ s, (Re.opt (.seq (.chr 0x44) (.chr 0x3A))).run s = [([], s)] → dateRegex.matchWhole s = bodyFn s := by
    intro s h
    rw [← match_body, Re.matchWhole, e, h, Re.matchWhole]
    simp
  split
  · rename_i r
    rw [← match_body, Re.matchWhole, e]
    have h : (Re.opt (.seq (.chr 0x44) (.chr 0x3A))).run (0x44 :: 0x3A :: r) = [([], r), ([], 0x44 :: 0x3A :: r)] := by
      simp [Re.run, Re.chr]
    rw [h]
    simp [hno 0x44 _ (by decide), Re.matchWhole]
  · rename_i hs
    apply plain
    match s with
    | [] => simp [Re.run, Re.chr]
    | [c] => by_cases hc : c = 0x44 <;> simp [Re.run, Re.chr, hc]
    | c :: d :: r =>
      by_cases hc : c = 0x44
      · by_cases hd : d = 0x3A
        · subst hc; subst hd; exact absurd rfl (hs r)
        · simp [Re.run, Re.chr, hc, hd]
      · simp [Re.run, Re.chr, hc]

/-! ### Texts -/

/-- The parts of a date followed by `r`. -/
def PartsOK : List Bytes → Bytes → Prop
  | [], _ => True
  | [p], r => Digits 2 p ∨ (r = [] ∧ Digits 1 p)
  | p :: q :: l, r => Digits 2 p ∧ PartsOK (q :: l) r

theorem partsOK_iff (l : List Bytes) (r : Bytes) :
    PartsOK l r ↔ (∀ p ∈ l.dropLast, Digits 2 p) ∧ (∀ p ∈ l.getLast?, Digits 2 p ∨ (r = [] ∧ Digits 1 p)) := by
  induction l with
  | nil => simp [PartsOK]
  | cons p l ih =>
    cases l with
    | nil => simp [PartsOK]
    | cons q l =>
      rw [PartsOK, ih]
      simp only [List.dropLast_cons_cons, List.mem_cons, forall_eq_or_imp, List.getLast?_cons_cons, and_assoc]

theorem digits_one {p : Bytes} (h : Digits 1 p) : ∃ c, p = [c] ∧ isNumeric c = true := by
  obtain ⟨h1, h2⟩ := h
  match p, h1 with
  | [c], _ => exact ⟨c, rfl, (isDigit_iff c).mp (h2 c (by simp))⟩

theorem digits_two {p : Bytes} (h : Digits 2 p) : ∃ c d, p = [c, d] ∧ isNumeric c = true ∧ isNumeric d = true := by
  obtain ⟨h1, h2⟩ := h
  match p, h1 with
  | [c, d], _ => exact ⟨c, d, rfl, (isDigit_iff c).mp (h2 c (by simp)), (isDigit_iff d).mp (h2 d (by simp))⟩

theorem digits_mk1 {c : Byte} (h : isNumeric c = true) : Digits 1 [c] :=
  ⟨rfl, by intro x hx; rw [List.mem_singleton] at hx; rw [hx]; exact (isDigit_iff c).mpr h⟩

theorem digits_mk2 {c d : Byte} (h : isNumeric c = true) (h' : isNumeric d = true) : Digits 2 [c, d] := by
  refine ⟨rfl, ?_⟩
  intro x hx
  simp only [List.mem_cons, List.not_mem_nil, or_false] at hx
  rcases hx with rfl | rfl
  · exact (isDigit_iff _).mpr h
  · exact (isDigit_iff _).mpr h'

theorem fieldsFn_nil (n : Nat) : fieldsFn n [] = some (List.replicate n [], []) := by
  induction n with
  | zero => rfl
  | succ n ih => simp [fieldsFn, fieldFn, ih, List.replicate_succ]

theorem fields_iff (n : Nat) (s : Bytes) (caps : List Bytes) (r : Bytes) :
    fieldsFn n s = some (caps, r) ↔ ∃ parts, caps = parts ++ List.replicate (n - parts.length) [] ∧ parts.length ≤ n ∧
      s = parts.flatten ++ r ∧ PartsOK parts r ∧ (parts.length < n → r = []) := by
  induction n generalizing s caps with
  | zero =>
    constructor
    · intro h
      simp only [fieldsFn, Option.some.injEq, Prod.mk.injEq] at h
      obtain ⟨rfl, rfl⟩ := h
      exact ⟨[], rfl, by simp, rfl, trivial, by simp⟩
    · rintro ⟨parts, h1, h2, h3, -, -⟩
      have : parts = [] := List.length_eq_zero_iff.mp (by omega)
      subst this
      simp [fieldsFn, h1, h3]
  | succ n ih =>
    constructor
    · intro h
      match s, h with
      | [], h =>
        rw [fieldsFn_nil] at h
        simp only [Option.some.injEq, Prod.mk.injEq] at h
        obtain ⟨rfl, rfl⟩ := h
        exact ⟨[], by simp, by simp, rfl, trivial, by simp⟩
      | [c], h =>
        rw [fieldsFn, fieldFn] at h
        by_cases hc : isNumeric c = true
        · rw [if_pos hc] at h
          simp only [Option.bind_some, fieldsFn_nil, Option.map_some, Option.some.injEq, Prod.mk.injEq] at h
          obtain ⟨rfl, rfl⟩ := h
          exact ⟨[[c]], by simp, by simp, by simp, Or.inr ⟨rfl, digits_mk1 hc⟩, by simp⟩
        · rw [if_neg hc] at h; cases h
      | c :: d :: u, h =>
        rw [fieldsFn, fieldFn] at h
        by_cases hc : (isNumeric c && isNumeric d) = true
        · rw [if_pos hc] at h
          simp only [Option.bind_some] at h
          cases hf : fieldsFn n u with
          | none => rw [hf] at h; cases h
          | some y =>
            rw [hf] at h
            simp only [Option.map_some, Option.some.injEq, Prod.mk.injEq] at h
            obtain ⟨rfl, rfl⟩ := h
            obtain ⟨parts, h1, h2, h3, h4, h5⟩ := (ih u y.1).mp (by rw [hf])
            have hcd := digits_mk2 (c := c) (d := d) (by simp_all) (by simp_all)
            refine ⟨[c, d] :: parts, by rw [h1]; simp, by simp; omega, by rw [h3]; simp, ?_, by
              intro hl; exact h5 (by simpa using hl)⟩
            cases parts with
            | nil => exact Or.inl hcd
            | cons p l => exact ⟨hcd, h4⟩
        · rw [if_neg hc] at h; cases h
    · rintro ⟨parts, h1, h2, h3, h4, h5⟩
      cases parts with
      | nil =>
        have hr := h5 (by simp)
        subst hr
        rw [h3, h1]
        simp [fieldsFn_nil]
      | cons p l =>
        have two : Digits 2 p → fieldsFn (n + 1) s = some (caps, r) := by
          intro hp
          obtain ⟨c, d, rfl, hc, hd⟩ := digits_two hp
          have hs : s = c :: d :: (l.flatten ++ r) := by rw [h3]; simp
          have hf : fieldsFn n (l.flatten ++ r) = some (l ++ List.replicate (n - l.length) [], r) := by
            apply (ih _ _).mpr
            refine ⟨l, rfl, by simp at h2; omega, rfl, ?_, fun hl => h5 (by simp; omega)⟩
            cases l with
            | nil => trivial
            | cons q l => exact h4.2
          rw [hs, fieldsFn, fieldFn, if_pos (by simp [hc, hd])]
          simp only [Option.bind_some, hf, Option.map_some, h1]
          simp
        cases l with
        | cons q l => exact two h4.1
        | nil =>
          rcases h4 with h4 | ⟨rfl, h4⟩
          · exact two h4
          · obtain ⟨c, rfl, hc⟩ := digits_one h4
            have hs : s = [c] := by rw [h3]; simp
            rw [hs, fieldsFn, fieldFn, if_pos hc]
            simp [fieldsFn_nil, h1]

theorem minutes_iff (u m : Bytes) : zoneMinutes u = some m ↔
    ((u = [] ∨ u = [39]) ∧ m = []) ∨
      ∃ q q', (q = [] ∨ q = [39]) ∧ (q' = [] ∨ q' = [39]) ∧ Digits 2 m ∧ u = q ++ m ++ q' := by
  constructor
  · intro h
    match u, h with
    | [], h => simp only [zoneMinutes, Option.some.injEq] at h; exact Or.inl ⟨Or.inl rfl, h.symm⟩
    | [q], h =>
      rw [zoneMinutes] at h
      by_cases hq : q = 39
      · rw [if_pos hq, Option.some.injEq] at h; exact Or.inl ⟨Or.inr (by rw [hq]), h.symm⟩
      · rw [if_neg hq] at h; cases h
    | [a, b], h =>
      rw [zoneMinutes] at h
      by_cases hq : (isNumeric a && isNumeric b) = true
      · rw [if_pos hq, Option.some.injEq] at h; subst h
        simp at hq
        exact Or.inr ⟨[], [], Or.inl rfl, Or.inl rfl, digits_mk2 hq.1 hq.2, rfl⟩
      · rw [if_neg hq] at h; cases h
    | [a, b, c], h =>
      rw [zoneMinutes] at h
      by_cases hq : (a = 39 && isNumeric b && isNumeric c) = true
      · rw [if_pos hq, Option.some.injEq] at h; subst h
        simp at hq
        exact Or.inr ⟨[39], [], Or.inr rfl, Or.inl rfl, digits_mk2 hq.1.2 hq.2, by rw [hq.1.1]; rfl⟩
      · rw [if_neg hq] at h
        by_cases hq : (isNumeric a && isNumeric b && c = 39) = true
        · rw [if_pos hq, Option.some.injEq] at h; subst h
          simp at hq
          exact Or.inr ⟨[], [39], Or.inl rfl, Or.inr rfl, digits_mk2 hq.1.1 hq.1.2, by rw [hq.2]; rfl⟩
        · rw [if_neg hq] at h; cases h
    | [a, b, c, d], h =>
      rw [zoneMinutes] at h
      by_cases hq : (a = 39 && isNumeric b && isNumeric c && d = 39) = true
      · rw [if_pos hq, Option.some.injEq] at h; subst h
        simp at hq
        exact Or.inr ⟨[39], [39], Or.inr rfl, Or.inr rfl, digits_mk2 hq.1.1.2 hq.1.2, by rw [hq.1.1.1, hq.2]; rfl⟩
      · rw [if_neg hq] at h; cases h
    | a :: b :: c :: d :: e :: r, h => cases h
  · rintro (⟨rfl | rfl, rfl⟩ | ⟨q, q', hq, hq', hm, rfl⟩)
    · rfl
    · rfl
    · obtain ⟨a, b, rfl, ha, hb⟩ := digits_two hm
      rcases hq with rfl | rfl <;> rcases hq' with rfl | rfl <;> simp [zoneMinutes, ha, hb]
      intro h; subst h; exact absurd ha (by decide)

theorem zone_iff (r : Bytes) (gs : List Bytes) : zoneFn r = some gs ↔
    (r = [] ∧ gs = [[], [], []]) ∨ ∃ c h m, gs = [[c], h, m] ∧ (c = 90 ∨ c = 43 ∨ c = 45) ∧
      ((r = [c] ∧ h = [] ∧ m = []) ∨ (∃ u, Digits 2 h ∧ r = c :: (h ++ u) ∧ zoneMinutes u = some m)) := by
  constructor
  · intro h
    match r, h with
    | [], h => simp only [zoneFn, Option.some.injEq] at h; exact Or.inl ⟨rfl, h.symm⟩
    | [c], h =>
      rw [zoneFn] at h
      by_cases hc : c = 90 ∨ c = 43 ∨ c = 45
      · rw [if_pos hc, Option.some.injEq] at h
        exact Or.inr ⟨c, [], [], h.symm, hc, Or.inl ⟨rfl, rfl, rfl⟩⟩
      · rw [if_neg hc] at h; cases h
    | [c, d], h => cases h
    | c :: x :: y :: u, h =>
      rw [zoneFn] at h
      by_cases hc : (c = 90 ∨ c = 43 ∨ c = 45) ∧ isNumeric x = true ∧ isNumeric y = true
      · rw [if_pos hc] at h
        cases hm : zoneMinutes u with
        | none => rw [hm] at h; cases h
        | some m =>
          rw [hm] at h
          simp only [Option.map_some, Option.some.injEq] at h
          exact Or.inr ⟨c, [x, y], m, h.symm, hc.1, Or.inr ⟨u, digits_mk2 hc.2.1 hc.2.2, rfl, hm⟩⟩
      · rw [if_neg hc] at h; cases h
  · rintro (⟨rfl, rfl⟩ | ⟨c, h, m, rfl, hc, ⟨rfl, rfl, rfl⟩ | ⟨u, hh, rfl, hm⟩⟩)
    · rfl
    · rw [zoneFn, if_pos hc]
    · obtain ⟨a, b, rfl, ha, hb⟩ := digits_two hh
      change zoneFn (c :: a :: b :: u) = _
      rw [zoneFn, if_pos ⟨hc, ha, hb⟩, hm]
      rfl

/-! ### Numbers -/

theorem digitsVal_lt (ds : Bytes) (h : ∀ c ∈ ds, IsDigit c) : digitsVal ds < 10 ^ ds.length := by
  have key : ∀ (ds : Bytes) (a : Nat), (∀ c ∈ ds, IsDigit c) →
      ds.foldl (fun a c => a * 10 + (c.toNat - 48)) a < (a + 1) * 10 ^ ds.length := by
    intro ds
    induction ds with
    | nil => intro a _; simp
    | cons c ds ih =>
      intro a h
      have h1 := ih (a * 10 + (c.toNat - 48)) (fun d hd => h d (by simp [hd]))
      obtain ⟨h2, h3⟩ := h c (by simp)
      rw [List.foldl_cons, List.length_cons, Nat.pow_succ]
      have : (a * 10 + (c.toNat - 48) + 1) * 10 ^ ds.length ≤ (a + 1) * 10 * 10 ^ ds.length :=
        Nat.mul_le_mul_right _ (by omega)
      calc _ < _ := h1
        _ ≤ _ := this
        _ = _ := by rw [Nat.mul_assoc, Nat.mul_comm 10]
  have := key ds 0 h
  simpa [digitsVal] using this

theorem stoi_digits {n : Nat} {ds : Bytes} (h : Digits n ds) (h0 : 0 < n) (hn : n ≤ 4) : stoi 10 ds = .ok (digitsVal ds) := by
  obtain ⟨h1, h2⟩ := h
  have ht : IntText (digitsVal ds) ds := ⟨ds, by rintro rfl; simp at h1; omega, h2, Or.inl ⟨rfl, rfl⟩⟩
  have hlt := digitsVal_lt ds h2
  have : 10 ^ ds.length ≤ 10 ^ 4 := Nat.pow_le_pow_right (by omega) (by omega)
  rw [stoi, strtolInt_text ht]
  change (if _ then _ else _) = _
  rw [if_pos (by omega)]
  rfl

/-- A group: empty, one or two digits. -/
theorem number_group {g : Bytes} (h : g = [] ∨ Digits 1 g ∨ Digits 2 g) (d : Int) :
    dateNumber g d = .ok (if g = [] then d else digitsVal g) := by
  rcases h with rfl | h | h
  · rfl
  · obtain ⟨c, rfl, -⟩ := digits_one h
    rw [dateNumber, if_pos (by simp), stoi_digits h (by omega) (by omega), if_neg (by simp)]
  · obtain ⟨c, d, rfl, -, -⟩ := digits_two h
    rw [dateNumber, if_pos (by simp), stoi_digits h (by omega) (by omega), if_neg (by simp)]

theorem year_group {g : Bytes} (h : Digits 4 g) (d : Int) : dateNumber g d = .ok (digitsVal g) := by
  rw [dateNumber, if_pos (by rw [h.1]; omega), stoi_digits h (by omega) (by omega)]

theorem year_iff (s y r : Bytes) : yearFn s = some (y, r) ↔ Digits 4 y ∧ s = y ++ r := by
  constructor
  · intro h
    match s, h with
    | a :: b :: c :: d :: u, h =>
      rw [yearFn] at h
      by_cases hc : (isNumeric a && isNumeric b && isNumeric c && isNumeric d) = true
      · rw [if_pos hc] at h
        simp only [Option.some.injEq, Prod.mk.injEq] at h
        obtain ⟨rfl, rfl⟩ := h
        simp only [Bool.and_eq_true] at hc
        refine ⟨⟨rfl, ?_⟩, rfl⟩
        intro x hx
        simp only [List.mem_cons, List.not_mem_nil, or_false] at hx
        rw [isDigit_iff]
        rcases hx with rfl | rfl | rfl | rfl
        · exact hc.1.1.1
        · exact hc.1.1.2
        · exact hc.1.2
        · exact hc.2
      · rw [if_neg hc] at h; cases h
  · rintro ⟨⟨h1, h2⟩, rfl⟩
    match y, h1 with
    | [a, b, c, d], _ =>
      have h : ∀ x ∈ [a, b, c, d], isNumeric x = true := fun x hx => (isDigit_iff x).mp (h2 x hx)
      simp only [List.cons_append, List.nil_append, yearFn]
      rw [if_pos (by simp [h])]

theorem check_iff (d e : DateFields) (hy : 0 ≤ d.year ∧ d.year ≤ 9999) : checkDate d = .ok e ↔ d = e ∧ DateInRange d := by
  unfold checkDate DateInRange
  constructor
  · intro h
    repeat' split at h
    any_goals cases h
    refine ⟨rfl, ?_⟩
    omega
  · rintro ⟨rfl, h⟩
    repeat rw [if_neg (by omega)]

end VPdf
