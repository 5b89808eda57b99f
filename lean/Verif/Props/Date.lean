import Verif.Lemmas.Date
import Verif.Lemmas.Clone
import Verif.Lemmas.XrefTable
/-
  **C52**: dates.
-/
namespace VPdf
open Spec

/-- The time zone groups with their meaning. -/
theorem zone_eval (r : Bytes) (zt : Timezone) (ho mo : Int) :
    (∃ g7 g8 g9, zoneFn r = some [g7, g8, g9] ∧ dateTimezone g7 = .ok zt ∧ dateNumber g8 0 = .ok ho ∧ dateNumber g9 0 = .ok mo) ↔
      (r = [] ∧ zt = .utc ∧ ho = 0 ∧ mo = 0) ∨ ZoneText r zt ho mo := by
  have sign : ∀ c : Byte, (c = 90 ∨ c = 43 ∨ c = 45) → (dateTimezone [c] = .ok zt ↔ ZoneSign c zt) := by
    intro c hc
    rcases hc with rfl | rfl | rfl
    all_goals
      cases zt <;> simp [dateTimezone, ZoneSign]
  constructor
  · rintro ⟨g7, g8, g9, hz, h7, h8, h9⟩
    rcases (zone_iff _ _).mp hz with ⟨rfl, hg⟩ | ⟨c, h, m, hg, hc, hr⟩
    · simp only [List.cons.injEq, and_true] at hg
      obtain ⟨rfl, rfl, rfl⟩ := hg
      left
      refine ⟨rfl, ?_, ?_, ?_⟩
      · exact (Except.ok.inj h7).symm
      · exact (Except.ok.inj h8).symm
      · exact (Except.ok.inj h9).symm
    · simp only [List.cons.injEq, and_true] at hg
      obtain ⟨rfl, rfl, rfl⟩ := hg
      have hs := (sign c hc).mp h7
      right
      rcases hr with ⟨rfl, rfl, rfl⟩ | ⟨u, hh, rfl, hm⟩
      · have e8 := (Except.ok.inj h8).symm
        have e9 := (Except.ok.inj h9).symm
        subst e8 e9
        exact .sign hs
      · rw [number_group (Or.inr (Or.inr hh)), if_neg (by rintro rfl; cases hh.1)] at h8
        have e8 := (Except.ok.inj h8).symm
        subst e8
        rcases (minutes_iff u g9).mp hm with ⟨hu, rfl⟩ | ⟨q, q', hq, hq', hm2, rfl⟩
        · have e9 := (Except.ok.inj h9).symm
          subst e9
          exact .hours hs hh hu
        · rw [number_group (Or.inr (Or.inr hm2)), if_neg (by rintro rfl; cases hm2.1)] at h9
          have e9 := (Except.ok.inj h9).symm
          subst e9
          have := ZoneText.minutes hs hh hq hm2 hq'
          simpa [List.append_assoc] using this
  · have signs : ∀ c : Byte, ZoneSign c zt → c = 90 ∨ c = 43 ∨ c = 45 := by
      rintro c (⟨rfl, -⟩ | ⟨rfl, -⟩ | ⟨rfl, -⟩) <;> simp
    rintro (⟨rfl, rfl, rfl, rfl⟩ | h)
    · exact ⟨[], [], [], rfl, rfl, rfl, rfl⟩
    · cases h with
      | @sign c z hs =>
        exact ⟨[c], [], [], (zone_iff _ _).mpr (Or.inr ⟨c, [], [], rfl, signs c hs, Or.inl ⟨rfl, rfl, rfl⟩⟩),
          (sign c (signs c hs)).mpr hs, rfl, rfl⟩
      | @hours c z h q hs hh hq =>
        refine ⟨[c], h, [], (zone_iff _ _).mpr (Or.inr ⟨c, h, [], rfl, signs c hs, Or.inr ⟨q, hh, rfl, ?_⟩⟩),
          (sign c (signs c hs)).mpr hs, ?_, rfl⟩
        · exact (minutes_iff _ _).mpr (Or.inl ⟨hq, rfl⟩)
        · rw [number_group (Or.inr (Or.inr hh)), if_neg (by rintro rfl; cases hh.1)]
      | @minutes c z h q m q' hs hh hq hm hq' =>
        refine ⟨[c], h, m, (zone_iff _ _).mpr (Or.inr ⟨c, h, m, rfl, signs c hs, Or.inr ⟨q ++ m ++ q', hh, by
            simp [List.append_assoc], ?_⟩⟩), (sign c (signs c hs)).mpr hs, ?_, ?_⟩
        · exact (minutes_iff _ _).mpr (Or.inr ⟨q, q', hq, hq', hm, rfl⟩)
        · rw [number_group (Or.inr (Or.inr hh)), if_neg (by rintro rfl; cases hh.1)]
        · rw [number_group (Or.inr (Or.inr hm)), if_neg (by rintro rfl; cases hm.1)]

theorem partsOK_mem {l : List Bytes} {r : Bytes} (h : PartsOK l r) : ∀ p ∈ l, Digits 1 p ∨ Digits 2 p := by
  induction l with
  | nil => simp
  | cons p l ih =>
    cases l with
    | nil =>
      intro x hx
      rw [List.mem_singleton] at hx
      subst hx
      rcases h with h | h
      · exact Or.inr h
      · exact Or.inl h.2
    | cons q l =>
      intro x hx
      rcases List.mem_cons.mp hx with rfl | hx
      · exact Or.inr h.1
      · exact ih h.2 x hx

/-- The value of the group of a part. -/
theorem part_eval {l : List Bytes} {r : Bytes} (h : PartsOK l r) (i : Nat) (d : Int) :
    dateNumber ((l[i]?).getD []) d = .ok (partValue l i d) := by
  cases hi : l[i]? with
  | none => rw [partValue, hi]; rfl
  | some p =>
    have hm := partsOK_mem h p (List.mem_of_getElem? hi)
    have hne : p ≠ [] := by rintro rfl; rcases hm with hm | hm <;> cases hm.1
    rw [partValue, hi, Option.getD_some, number_group (Or.inr hm), if_neg hne]

theorem caps_parts (l : List Bytes) (h : l.length ≤ 5) : l ++ List.replicate (5 - l.length) [] =
    [(l[0]?).getD [], (l[1]?).getD [], (l[2]?).getD [], (l[3]?).getD [], (l[4]?).getD []] := by
  match l, h with
  | [], _ => rfl
  | [_], _ => rfl
  | [_, _], _ => rfl
  | [_, _, _], _ => rfl
  | [_, _, _, _], _ => rfl
  | [_, _, _, _, _], _ => rfl
  | _ :: _ :: _ :: _ :: _ :: _ :: _, h => simp at h

theorem dropBom_cons {c : Byte} {r : Bytes} (h : c ≠ 0xEF) : dropBom (c :: r) = c :: r := by
  unfold dropBom
  split
  · rename_i h'; exact absurd (List.cons.inj h').1 h
  · rfl

/-- **C52**. A text is accepted as a date if and only if it is one, and then the fields are those of the text. -/
theorem C52_accepts (s : Bytes) (d : DateFields) : parseDate s = .ok d ↔ DateText s d := by
  constructor
  · intro h
    rw [parseDate] at h
    split at h
    · rename_i g1 g2 g3 g4 g5 g6 g7 g8 g9 hm
      -- the byte order mark
      obtain ⟨bom, hb, hs⟩ : ∃ bom, (bom = [] ∨ bom = [0xEF, 0xBB, 0xBF]) ∧ s = bom ++ dropBom s := by
        unfold dropBom
        split
        · exact ⟨[0xEF, 0xBB, 0xBF], Or.inr rfl, rfl⟩
        · exact ⟨[], Or.inl rfl, rfl⟩
      obtain ⟨mark, b, hk, ht, hbody⟩ : ∃ mark b, (mark = [] ∨ mark = b! "D:") ∧ dropBom s = mark ++ b ∧
          bodyFn b = some [g1, g2, g3, g4, g5, g6, g7, g8, g9] := by
        rw [match_regex] at hm
        split at hm
        · rename_i r hr
          exact ⟨b! "D:", r, Or.inr rfl, hr, hm⟩
        · exact ⟨[], _, Or.inl rfl, rfl, hm⟩
      rw [bodyFn] at hbody
      cases hy : yearFn b with
      | none => rw [hy] at hbody; cases hbody
      | some y =>
        cases hf : fieldsFn 5 y.2 with
        | none => rw [hy, Option.bind_some, hf] at hbody; cases hbody
        | some f =>
          cases hz : zoneFn f.2 with
          | none => rw [hy, Option.bind_some, hf, Option.bind_some, hz] at hbody; cases hbody
          | some z =>
            rw [hy, Option.bind_some, hf, Option.bind_some, hz] at hbody
            obtain ⟨hy1, hy2⟩ := (year_iff b y.1 y.2).mp hy
            obtain ⟨parts, p1, p2, p3, p4, p5⟩ := (fields_iff 5 y.2 f.1 f.2).mp hf
            rw [caps_parts parts p2] at p1
            simp only [Option.map_some, Option.some.injEq, p1, List.cons_append, List.nil_append, List.cons.injEq] at hbody
            obtain ⟨e1, e2, e3, e4, e5, e6, e7⟩ := hbody
            rw [← e1, year_group hy1, ← e2, part_eval p4, ← e3, part_eval p4, ← e4, part_eval p4, ← e5, part_eval p4, ← e6,
              part_eval p4] at h
            simp only [ok_bind] at h
            obtain ⟨ho, h8, h⟩ := except_bind_ok h
            obtain ⟨mo, h9, h⟩ := except_bind_ok h
            obtain ⟨zt, h7, h⟩ := except_bind_ok h
            have hzone := (zone_eval f.2 zt ho mo).mp ⟨g7, g8, g9, by rw [hz, e7], h7, h8, h9⟩
            have hlt := digitsVal_lt y.1 hy1.2
            rw [hy1.1] at hlt
            obtain ⟨rfl, hr⟩ := (check_iff _ _ (by dsimp only; omega)).mp h
            have hp := (partsOK_iff parts f.2).mp p4
            refine ⟨bom, mark, y.1, parts, f.2, hb, hk, hy1, ?_, p2, hp.1, hp.2, rfl, rfl, rfl, rfl, rfl, rfl, ?_, hr⟩
            · rw [hs, ht, hy2, p3]; simp [List.append_assoc]
            · rcases hzone with ⟨q1, q2, q3, q4⟩ | hzone
              · exact Or.inl ⟨q1, q2, q3, q4⟩
              · by_cases h5 : parts.length = 5
                · exact Or.inr ⟨h5, hzone⟩
                · have := p5 (by omega)
                  rw [this] at hzone
                  cases hzone
    · cases h
  · rintro ⟨bom, mark, year, parts, zone, hb, hk, hy, hs, p2, hp1, hp2, e1, e2, e3, e4, e5, e6, hz, hr⟩
    have hp : PartsOK parts zone := (partsOK_iff parts zone).mpr ⟨hp1, hp2⟩
    obtain ⟨g7, g8, g9, z1, z2, z3, z4⟩ := (zone_eval zone d.zone d.hourOffset d.minuteOffset).mpr (by
      rcases hz with hz | hz
      · exact Or.inl hz
      · exact Or.inr hz.2)
    have p5 : parts.length < 5 → zone = [] := by
      intro hl
      rcases hz with hz | hz
      · exact hz.1
      · omega
    have hf := (fields_iff 5 (parts.flatten ++ zone) _ zone).mpr ⟨parts, rfl, p2, rfl, hp, p5⟩
    rw [caps_parts parts p2] at hf
    have hyear := (year_iff (year ++ (parts.flatten ++ zone)) year _).mpr ⟨hy, rfl⟩
    have hbody : bodyFn (year ++ (parts.flatten ++ zone)) = some [year, (parts[0]?).getD [], (parts[1]?).getD [],
        (parts[2]?).getD [], (parts[3]?).getD [], (parts[4]?).getD [], g7, g8, g9] := by
      rw [bodyFn, hyear, Option.bind_some, hf, Option.bind_some, z1]
      rfl
    obtain ⟨y, ys, rfl⟩ : ∃ y ys, year = y :: ys := by
      cases year with
      | nil => cases hy.1
      | cons y ys => exact ⟨y, ys, rfl⟩
    have hyn := (isDigit_iff y).mp (hy.2 y (by simp))
    have hdrop : dropBom s = mark ++ ((y :: ys) ++ (parts.flatten ++ zone)) := by
      rw [hs]
      have hyE : y ≠ 0xEF := by rintro rfl; exact absurd hyn (by decide)
      rcases hb with rfl | rfl <;> rcases hk with rfl | rfl
      · simp only [List.nil_append, List.cons_append, List.append_assoc]; exact dropBom_cons hyE
      · simp only [List.nil_append, List.cons_append, List.append_assoc]
        exact dropBom_cons (by decide)
      · simp only [List.nil_append, List.cons_append, List.append_assoc, dropBom]
      · simp only [List.nil_append, List.cons_append, List.append_assoc, dropBom]
    have hmatch : dateRegex.matchWhole (dropBom s) = some [y :: ys, (parts[0]?).getD [], (parts[1]?).getD [],
        (parts[2]?).getD [], (parts[3]?).getD [], (parts[4]?).getD [], g7, g8, g9] := by
      rw [match_regex, hdrop]
      rcases hk with rfl | rfl
      · rw [List.nil_append]
        split
        · rename_i r heq
          have : y = 0x44 := (List.cons.inj heq).1
          subst this
          exact absurd hyn (by decide)
        · exact hbody
      · exact hbody
    rw [parseDate, hmatch]
    simp only [year_group hy, part_eval hp, z2, z3, z4, ok_bind]
    have hlt := digitsVal_lt (y :: ys) hy.2
    rw [hy.1] at hlt
    have hd : d = ⟨digitsVal (y :: ys), partValue parts 0 1, partValue parts 1 1, partValue parts 2 0, partValue parts 3 0,
        partValue parts 4 0, d.zone, d.hourOffset, d.minuteOffset⟩ := by
      rw [← e1, ← e2, ← e3, ← e4, ← e5, ← e6]
    rw [← hd]
    exact (check_iff d d (by rw [e1]; omega)).mpr ⟨rfl, hr⟩

example : DateText (b! "D:20240229235959+05'30'") ⟨2024, 2, 29, 23, 59, 59, .later, 5, 30⟩ := by
  rw [← C52_accepts]; decide +kernel
example (d : DateFields) : ¬ DateText (b! "D:2024Z") d := by
  rw [← C52_accepts, show parseDate (b! "D:2024Z") = .error .throw by decide +kernel]; simp

/-- **C52**. Accepted dates have fields in range. -/
theorem C52_range (s : Bytes) (d : DateFields) (h : parseDate s = .ok d) : DateInRange d := by
  obtain ⟨_, _, _, _, _, -, -, -, -, -, -, -, -, -, -, -, -, -, -, h⟩ := (C52_accepts s d).mp h
  exact h

theorem padZero_digits (w : Nat) (v : Int) (h0 : 0 ≤ v) (h : v < 10 ^ (w + 1)) :
    Digits (w + 1) (padZero (w + 1) v) ∧ (digitsVal (padZero (w + 1) v) : Int) = v := by
  obtain ⟨n, rfl⟩ : ∃ n : Nat, v = n := ⟨v.toNat, by omega⟩
  have hi : intDec (n : Int) = natDec n := by
    have h' : ¬ ((n : Int) < 0) := by omega
    rw [intDec, if_neg h']; rfl
  obtain ⟨h1, h2, h3⟩ := natDec_facts n
  have hlt : n < 10 ^ (w + 1) := by exact_mod_cast h
  have hl : (natDec n).length ≤ w + 1 := by
    have := natDecAux_length (n + 1) n w [] hlt
    simpa [natDec] using this
  have hz : ∀ k a, (List.replicate k (0x30 : Byte)).foldl (fun a c => a * 10 + (c.toNat - 48)) a = a * 10 ^ k := by
    intro k
    induction k with
    | zero => simp
    | succ k ih =>
      intro a
      have : (0x30 : Byte).toNat - 48 = 0 := by decide
      rw [List.replicate_succ, List.foldl_cons, this, ih, Nat.pow_succ, Nat.add_zero, Nat.mul_assoc, Nat.mul_comm 10]
  rw [padZero, hi]
  refine ⟨⟨by simp; omega, ?_⟩, ?_⟩
  · intro c hc
    rcases List.mem_append.mp hc with hc | hc
    · rw [List.eq_of_mem_replicate hc]; exact (isDigit_iff _).mpr (by decide)
    · exact h2 c hc
  · rw [digitsVal, List.foldl_append, hz, Nat.zero_mul]
    exact_mod_cast h3

/-- **C52**. The text the library makes for a time is accepted, and the fields are those of the time. -/
theorem C52_written (d : DateFields) (h : DateInRange d) (hz : d.zone = .utc → d.hourOffset = 0 ∧ d.minuteOffset = 0) :
    parseDate (dateText d) = .ok d := by
  rw [C52_accepts]
  have hr := h
  obtain ⟨y0, y1, m0, m1, d0, d1, h0, h1, i0, i1, s0, s1, ho0, ho1, mo0, mo1⟩ := h
  obtain ⟨gy, vy⟩ := padZero_digits 3 d.year y0 (by omega)
  obtain ⟨gm, vm⟩ := padZero_digits 1 d.month (by omega) (by omega)
  obtain ⟨gd, vd⟩ := padZero_digits 1 d.day (by omega) (by omega)
  obtain ⟨gh, vh⟩ := padZero_digits 1 d.hour (by omega) (by omega)
  obtain ⟨gi, vi⟩ := padZero_digits 1 d.minute (by omega) (by omega)
  obtain ⟨gs, vs⟩ := padZero_digits 1 d.second (by omega) (by omega)
  obtain ⟨gho, vho⟩ := padZero_digits 1 d.hourOffset (by omega) (by omega)
  obtain ⟨gmo, vmo⟩ := padZero_digits 1 d.minuteOffset (by omega) (by omega)
  refine ⟨[], b! "D:", padZero 4 d.year, [padZero 2 d.month, padZero 2 d.day, padZero 2 d.hour, padZero 2 d.minute,
    padZero 2 d.second], (match d.zone with
      | .utc => b! "Z"
      | .earlier => b! "-" ++ padZero 2 d.hourOffset ++ b! "'" ++ padZero 2 d.minuteOffset ++ b! "'"
      | .later => b! "+" ++ padZero 2 d.hourOffset ++ b! "'" ++ padZero 2 d.minuteOffset ++ b! "'"), Or.inl rfl, Or.inr rfl, gy, ?_, by simp, ?_, ?_, vy.symm, vm.symm, vd.symm, vh.symm, vi.symm,
    vs.symm, Or.inr ⟨rfl, ?_⟩, hr⟩
  · rw [dateText]
    simp [List.append_assoc]
    cases d.zone <;> rfl
  · intro p hp
    simp only [List.dropLast_cons_cons, List.dropLast_singleton, List.mem_cons, List.not_mem_nil, or_false] at hp
    rcases hp with rfl | rfl | rfl | rfl
    exacts [gm, gd, gh, gi]
  · intro p hp
    simp at hp
    subst hp
    exact Or.inl gs
  · cases hzone : d.zone with
    | utc =>
      obtain ⟨z1, z2⟩ := hz hzone
      rw [z1, z2]
      exact .sign (Or.inl ⟨rfl, rfl⟩)
    | later =>
      have := ZoneText.minutes (c := 43) (z := .later) (Or.inr (Or.inl ⟨rfl, rfl⟩)) gho (Or.inr rfl) gmo (Or.inr rfl)
      rw [vho, vmo] at this
      simpa [List.append_assoc] using this
    | earlier =>
      have := ZoneText.minutes (c := 45) (z := .earlier) (Or.inr (Or.inr ⟨rfl, rfl⟩)) gho (Or.inr rfl) gmo (Or.inr rfl)
      rw [vho, vmo] at this
      simpa [List.append_assoc] using this

example : DateInRange ⟨2024, 2, 29, 23, 59, 59, .earlier, 5, 30⟩ ∧
    dateText ⟨2024, 2, 29, 23, 59, 59, .earlier, 5, 30⟩ = b! "D:20240229235959-05'30'" := by
  refine ⟨by unfold DateInRange; decide, by decide +kernel⟩

end VPdf
