import Verif.Spec.Watermark
import Verif.Props.Content
import Verif.Lemmas.PageEdit
import Mathlib.Tactic.Linarith
/-
  C111: the watermark of files saved without a licence.
-/
namespace VPdf
open Spec

/-! ### The order in which nodes are visited -/

/-- The two heaps have the same trees of nodes. -/
def SameKids (h g : MarkHeap) : Prop := ∀ a, (h.node a).map MarkNode.kids = (g.node a).map MarkNode.kids

theorem SameKids.trans {h g k : MarkHeap} (a : SameKids h g) (b : SameKids g k) : SameKids h k :=
  fun x => (a x).trans (b x)

theorem changeBody_node {h g : MarkHeap} {a : Nat} {f : Bytes → Bytes} (e : h.changeBody a f = .ok g) : g.node = h.node := by
  rw [MarkHeap.changeBody] at e
  split at e
  · simp at e
  · simp only [Except.ok.injEq] at e
    subst e
    rfl

theorem markContents_node {year : Nat} {image : Bytes} {box : Option (List Obj)} {h g : MarkHeap} {c : MarkContents}
    (e : markContents year image box h c = .ok g) : g.node = h.node := by
  cases c with
  | absent => simp only [markContents, Except.ok.injEq] at e; rw [e]
  | other => simp only [markContents, Except.ok.injEq] at e; rw [e]
  | one a =>
    obtain ⟨h1, e1, e2⟩ := bind_ok e
    obtain ⟨m, -, e3⟩ := bind_ok e2
    rw [changeBody_node e3, changeBody_node e1]
  | many l =>
    cases l with
    | nil => simp only [markContents, Except.ok.injEq] at e; rw [e]
    | cons a l =>
      obtain ⟨h1, e1, e2⟩ := bind_ok e
      obtain ⟨m, -, e3⟩ := bind_ok e2
      rw [changeBody_node e3, changeBody_node e1]

theorem markEnter_node (h : MarkHeap) (f font : Nat) : (markEnter h f font).node = h.node := by
  rw [markEnter]
  split <;> rfl

theorem markFonts_node {h : MarkHeap} {r : Nat} {x : MarkHeap × Nat} (e : markFonts h r = .ok x) : x.1.node = h.node := by
  rw [markFonts] at e
  split at e
  · simp only [Except.ok.injEq] at e; subst e; rfl
  · simp at e
  · simp only [Except.ok.injEq] at e; subst e; rfl

theorem markOwn_kids {year : Nat} {image : Bytes} {font : Nat} {h g : MarkHeap} {a : Nat}
    (e : markOwn year image font h a = .ok g) : SameKids h g := by
  rw [markOwn] at e
  split at e
  · simp at e
  · rename_i n hn
    obtain ⟨box, -, e⟩ := bind_ok e
    split at e
    · simp only [Except.ok.injEq] at e
      subst e
      exact fun _ => rfl
    · obtain ⟨⟨h1, r⟩, e1, e⟩ := bind_ok e
      obtain ⟨⟨h2, f⟩, e2, e⟩ := bind_ok e
      have n3 := markContents_node e
      rw [markEnter_node, markFonts_node e2] at n3
      intro x
      rw [n3]
      rw [markResources] at e1
      split at e1
      · simp only [Except.ok.injEq, Prod.mk.injEq] at e1
        obtain ⟨rfl, -⟩ := e1
        dsimp only
        by_cases hx : x = a
        · subst hx
          rw [if_pos rfl, hn]
          rfl
        · rw [if_neg hx]
      · simp at e1
      · simp only [Except.ok.injEq, Prod.mk.injEq] at e1
        obtain ⟨rfl, -⟩ := e1
        rfl

theorem bind_congr_ok {α β : Type} {m : Res α} {f g : α → Res β} (h : ∀ x, m = .ok x → f x = g x) : (m >>= f) = (m >>= g) := by
  cases m with
  | error e => rfl
  | ok x => exact h x rfl

theorem fold_kids {year : Nat} {image : Bytes} {font : Nat} (l : List Nat) :
    ∀ {h g : MarkHeap}, l.foldlM (markOwn year image font) h = .ok g → SameKids h g := by
  induction l with
  | nil => intro h g e; simp only [List.foldlM_nil, pure, Except.pure, Except.ok.injEq] at e; subst e; exact fun _ => rfl
  | cons a l ih =>
    intro h g e
    rw [List.foldlM_cons] at e
    obtain ⟨h1, e1, e2⟩ := bind_ok e
    exact (markOwn_kids e1).trans (ih e2)

/-- The nodes are marked one by one, children before their parent. -/
theorem markNode_visits (year : Nat) (image : Bytes) (font : Nat) {h : MarkHeap} {ks l : List Nat} (hl : PageNodes h ks l) :
    ∃ N, ∀ fuel, N ≤ fuel → ∀ g, SameKids h g →
      ks.foldlM (fun g k => markNode year image font fuel g k) g = l.foldlM (markOwn year image font) g := by
  induction hl with
  | nil => exact ⟨0, fun _ _ _ _ => rfl⟩
  | cons a n ks below rest hn hb hr ihb ihr =>
    obtain ⟨N1, h1⟩ := ihb
    obtain ⟨N2, h2⟩ := ihr
    refine ⟨max (N1 + 1) N2, ?_⟩
    intro fuel hf g hg
    obtain ⟨fu, rfl⟩ : ∃ fu, fuel = fu + 1 := ⟨fuel - 1, by omega⟩
    have hk := hg a
    rw [hn] at hk
    obtain ⟨n', hn', hk'⟩ : ∃ n', g.node a = some n' ∧ n'.kids = n.kids := by
      cases hq : g.node a with
      | none => rw [hq] at hk; simp at hk
      | some n' => rw [hq] at hk; exact ⟨n', rfl, by simpa using hk.symm⟩
    rw [List.foldlM_cons, List.foldlM_append, markNode, hn']
    simp only []
    rw [hk', h1 fu (by omega) g hg, bind_assoc]
    refine bind_congr_ok fun g1 e1 => ?_
    rw [List.foldlM_cons]
    refine bind_congr_ok fun g2 e2 => ?_
    exact h2 _ (by omega) g2 (hg.trans ((fold_kids _ e1).trans (markOwn_kids e2)))

/-! ### One node -/

theorem Spec.NothingLost.refl (h : MarkHeap) : NothingLost h h where
  next := Nat.le_refl _
  node := fun _ n hn => ⟨n, hn, rfl, rfl, rfl, fun _ hr => hr⟩
  font := fun _ _ _ h => h
  sound := fun _ _ h => h
  fonts := fun _ _ _ _ h => h
  others := fun _ _ _ _ => rfl

theorem Spec.NothingLost.trans {a b c : MarkHeap} (x : NothingLost a b) (y : NothingLost b c) : NothingLost a c where
  next := Nat.le_trans x.next y.next
  node := by
    intro p n hn
    obtain ⟨n1, h1, k1, c1, b1, r1⟩ := x.node p n hn
    obtain ⟨n2, h2, k2, c2, b2, r2⟩ := y.node p n1 h1
    exact ⟨n2, h2, k2.trans k1, c2.trans c1, b2.trans b1, fun r hr => r2 r (r1 r hr)⟩
  font := fun r f hr h => y.font r f (Nat.lt_of_lt_of_le hr x.next) (x.font r f hr h)
  sound := fun r hr h => y.sound r (Nat.lt_of_lt_of_le hr x.next) (x.sound r hr h)
  fonts := fun f hf k v h => y.fonts f (Nat.lt_of_lt_of_le hf x.next) k v (x.fonts f hf k v h)
  others := fun f hf k hk => (y.others f (Nat.lt_of_lt_of_le hf x.next) k hk).trans (x.others f hf k hk)

theorem markResources_spec {h : MarkHeap} {a : Nat} {n : MarkNode} (hw : AddressesBelow h) (hn : h.node a = some n)
    (hr : n.resources ≠ .bad) (hf : ∀ r, n.resources = .at r → h.font r ≠ .bad) :
    ∃ g r n', markResources h a n = .ok (g, r) ∧ AddressesBelow g ∧ NothingLost h g ∧ (∀ x, x ≠ a → g.node x = h.node x) ∧
      g.node a = some n' ∧ n'.resources = .at r ∧ r < g.next ∧ g.font r ≠ .bad ∧ g.body = h.body := by
  obtain ⟨w1, w2⟩ := hw
  rw [markResources]
  cases hq : n.resources with
  | bad => exact absurd hq hr
  | «at» r =>
    exact ⟨h, r, n, rfl, ⟨w1, w2⟩, NothingLost.refl h, fun _ _ => rfl, hn, hq, w1 a n r hn hq, hf r hq, rfl⟩
  | absent =>
    refine ⟨_, _, { n with resources := .at h.next }, rfl, ⟨?_, ?_⟩, ?_, ?_, ?_, rfl, ?_, ?_, rfl⟩
    · intro x m r hm hr
      dsimp only at hm ⊢
      split at hm
      · simp only [Option.some.injEq] at hm
        subst hm
        simp only [MarkEntry.at.injEq] at hr
        omega
      · have := w1 x m r hm hr
        omega
    · intro r f hf
      dsimp only at hf ⊢
      split at hf
      · simp at hf
      · have := w2 r f hf
        omega
    · constructor
      · exact Nat.le_succ _
      · intro x m hm
        dsimp only
        by_cases hx : x = a
        · subst hx
          rw [if_pos rfl]
          rw [hn] at hm
          simp only [Option.some.injEq] at hm
          subst hm
          exact ⟨_, rfl, rfl, rfl, rfl, fun r hr => by rw [hq] at hr; simp at hr⟩
        · rw [if_neg hx]
          exact ⟨m, hm, rfl, rfl, rfl, fun _ h => h⟩
      · intro r f hr hf
        dsimp only
        rw [if_neg (by omega)]
        exact hf
      · intro r hr hf
        dsimp only
        rw [if_neg (by omega)]
        exact hf
      · exact fun _ _ _ _ h => h
      · exact fun _ _ _ _ => rfl
    · intro x hx
      dsimp only
      rw [if_neg hx]
    · dsimp only
      rw [if_pos rfl]
    · dsimp only
      omega
    · dsimp only
      rw [if_pos rfl]
      simp

theorem markFonts_spec {h : MarkHeap} {r : Nat} (hw : AddressesBelow h) (hr : h.font r ≠ .bad) :
    ∃ g f, markFonts h r = .ok (g, f) ∧ AddressesBelow g ∧ NothingLost h g ∧ g.font r = .at f ∧ f < g.next ∧ g.body = h.body := by
  obtain ⟨w1, w2⟩ := hw
  rw [markFonts]
  cases hq : h.font r with
  | bad => exact absurd hq hr
  | «at» f => exact ⟨h, f, rfl, ⟨w1, w2⟩, NothingLost.refl h, hq, w2 r f hq, rfl⟩
  | absent =>
    refine ⟨_, _, rfl, ⟨?_, ?_⟩, ?_, ?_, ?_, rfl⟩
    · intro x m q hm hq
      have := w1 x m q hm hq
      dsimp only
      omega
    · intro q f hf
      dsimp only at hf ⊢
      split at hf
      · simp only [MarkEntry.at.injEq] at hf
        omega
      · have := w2 q f hf
        omega
    · constructor
      · exact Nat.le_succ _
      · exact fun x m hm => ⟨m, hm, rfl, rfl, rfl, fun _ h => h⟩
      · intro q f hq' hf
        dsimp only
        rw [if_neg (by rintro rfl; rw [hq] at hf; simp at hf)]
        exact hf
      · intro q hq' hf
        dsimp only
        split
        · simp
        · exact hf
      · intro f hf k v h
        dsimp only
        rw [if_neg (by omega)]
        exact h
      · intro f hf k hk
        dsimp only
        rw [if_neg (by omega)]
    · dsimp only
      rw [if_pos rfl]
    · dsimp only
      omega

theorem markEnter_spec {h : MarkHeap} {f : Nat} (font : Nat) (hw : AddressesBelow h) :
    AddressesBelow (markEnter h f font) ∧ NothingLost h (markEnter h f font) ∧ (markEnter h f font).font = h.font ∧
      (mapFind markFontName ((markEnter h f font).fonts f)).isSome ∧ (markEnter h f font).body = h.body := by
  rw [markEnter]
  by_cases hs : (mapFind markFontName (h.fonts f)).isSome
  · rw [if_pos hs]
    exact ⟨hw, NothingLost.refl h, rfl, hs, rfl⟩
  · rw [if_neg hs]
    have hnone : mapFind markFontName (h.fonts f) = none := by
      cases hm : mapFind markFontName (h.fonts f) with
      | none => rfl
      | some v => rw [hm] at hs; simp at hs
    refine ⟨hw, ?_, rfl, ?_, rfl⟩
    · constructor
      · exact Nat.le_refl _
      · exact fun x m hm => ⟨m, hm, rfl, rfl, rfl, fun _ h => h⟩
      · exact fun _ _ _ h => h
      · exact fun _ _ h => h
      · intro f' hf k v hv
        dsimp only
        split
        · rename_i e
          subst e
          have hk : k ≠ markFontName := by rintro rfl; rw [hnone] at hv; simp at hv
          rw [mapFind_insert_ne hk]
          exact hv
        · exact hv
      · intro f' hf k hk
        dsimp only
        split
        · rename_i e
          subst e
          exact mapFind_insert_ne hk
        · rfl
    · dsimp only
      rw [if_pos rfl, mapFind_insert_new hnone]
      rfl

/-- The heaps agree except for bodies. -/
theorem changeBody_spec {h : MarkHeap} {a : Nat} {b : Bytes} (f : Bytes → Bytes) (hb : h.body a = some b) :
    h.changeBody a f = .ok { h with body := fun x => if x = a then some (f b) else h.body x } := by
  rw [MarkHeap.changeBody, hb]

theorem streamsText_congr {h g : MarkHeap} (l : List Nat) (e : ∀ x ∈ l, g.body x = h.body x) :
    streamsText g l = streamsText h l := by
  induction l with
  | nil => rfl
  | cons a l ih =>
    rw [streamsText, streamsText, e a (by simp), ih (fun x hx => e x (by simp [hx]))]

theorem streamsText_some {h : MarkHeap} (l : List Nat) (e : ∀ x ∈ l, ∃ b, h.body x = some b) :
    ∃ t, streamsText h l = some t := by
  induction l with
  | nil => exact ⟨[], rfl⟩
  | cons a l ih =>
    obtain ⟨b, hb⟩ := e a (by simp)
    obtain ⟨t, ht⟩ := ih (fun x hx => e x (by simp [hx]))
    exact ⟨b ++ t, by rw [streamsText, hb, ht]⟩

theorem streamsText_append {h : MarkHeap} (l : List Nat) (a : Nat) {t b : Bytes} (ht : streamsText h l = some t)
    (hb : h.body a = some b) : streamsText h (l ++ [a]) = some (t ++ b) := by
  induction l generalizing t with
  | nil =>
    simp only [streamsText, Option.some.injEq] at ht
    subst ht
    simp [streamsText, hb]
  | cons x l ih =>
    rw [streamsText] at ht
    cases hx : h.body x with
    | none => rw [hx] at ht; simp at ht
    | some bx =>
      cases hl : streamsText h l with
      | none => rw [hx, hl] at ht; simp at ht
      | some tl =>
        rw [hx, hl] at ht
        simp only [Option.some.injEq] at ht
        subst ht
        rw [List.cons_append, streamsText, hx, ih hl]
        simp

/-- The first of the streams gets the prefix, the last one the suffix. -/
theorem markBodies {h : MarkHeap} (l : List Nat) (a : Nat) (hd : (a :: l).Nodup) (hb : ∀ x ∈ a :: l, ∃ b, h.body x = some b)
    (year : Nat) (image : Bytes) (box : Option (List Obj)) {m : Bytes} (hm : markBytes year image box = .ok m) :
    ∃ t g, streamsText h (a :: l) = some t ∧
      (markSave h a >>= fun h => markStream year image box h ((a :: l).getLast (by simp))) = .ok g ∧
      g = { h with body := g.body } ∧ (∀ x, x ∉ a :: l → g.body x = h.body x) ∧
      streamsText g (a :: l) = some (b! "q\n" ++ t ++ m) := by
  obtain ⟨b, hba⟩ := hb a (by simp)
  rw [markSave, changeBody_spec _ hba, ok_bind, markStream, hm, ok_bind]
  rcases List.eq_nil_or_concat l with rfl | ⟨l', z, hc⟩
  · have h1 : ({ h with body := fun x => if x = a then some (b! "q\n" ++ b) else h.body x } : MarkHeap).body a
        = some (b! "q\n" ++ b) := if_pos rfl
    simp only [List.getLast_singleton]
    rw [changeBody_spec _ h1]
    refine ⟨b, _, by simp [streamsText, hba], rfl, rfl, ?_, ?_⟩
    · intro x hx
      have : x ≠ a := by simpa using hx
      simp [this]
    · simp [streamsText]
  · rw [List.concat_eq_append] at hc
    subst hc
    have hz : (a :: (l' ++ [z])).getLast (List.cons_ne_nil _ _) = z := by
      rw [List.getLast_cons (by simp)]
      simp
    have hza : z ≠ a := by
      rintro rfl
      simp at hd
    have hzl : z ∉ l' := by
      intro hz
      simp only [List.nodup_cons, List.nodup_append] at hd
      exact hd.2.2.2 z hz z (by simp) rfl
    have hal : a ∉ l' := by
      intro hz
      simp only [List.nodup_cons] at hd
      exact hd.1 (by simp [hz])
    obtain ⟨bz, hbz⟩ := hb z (by simp)
    obtain ⟨tl, htl⟩ := streamsText_some (h := h) l' (fun x hx => hb x (by simp [hx]))
    have h1 : ({ h with body := fun x => if x = a then some (b! "q\n" ++ b) else h.body x } : MarkHeap).body z = some bz := by
      dsimp only
      rw [if_neg hza]
      exact hbz
    simp only [hz]
    rw [changeBody_spec _ h1]
    refine ⟨b ++ (tl ++ bz), _, ?_, rfl, rfl, ?_, ?_⟩
    · rw [streamsText, hba, streamsText_append l' z htl hbz]
    · intro x hx
      simp only [List.mem_cons, List.mem_append, not_or] at hx
      simp [hx.1, hx.2.2]
    · rw [streamsText]
      have e1 : streamsText
          { h with body := fun x => if x = z then some (bz ++ m) else if x = a then some (b! "q\n" ++ b) else h.body x } l' = some tl := by
        rw [← htl]
        refine streamsText_congr l' fun x hx => ?_
        dsimp only
        rw [if_neg (by rintro rfl; exact hzl hx), if_neg (by rintro rfl; exact hal hx)]
      have e2 := streamsText_append 
        (h := { h with body := fun x => if x = z then some (bz ++ m) else if x = a then some (b! "q\n" ++ b) else h.body x })
        l' z (b := bz ++ m) e1 (by simp)
      dsimp only at e2 ⊢
      rw [e2, if_neg (Ne.symm hza), if_pos rfl]
      simp


theorem markOps_text (year : Nat) : writeOps (markOps year) = writeInstructions (markInstructions year) := by
  simp [markOps, markInstructions, writeOps, writeInstructions, writeInstr, markText, markFontName, writeOp, writeOperands]

theorem writeInstructions_append (i j : List Instr) : writeInstructions (i ++ j) = writeInstructions i ++ writeInstructions j := by
  induction i with
  | nil => rfl
  | cons a i ih => simp [writeInstructions, ih]

theorem markNumber_whole {o : Obj} {x : Int} (h : WholePartOf o x) (h1 : -(2 ^ 63) < x) (h2 : x < 2 ^ 63) :
    ∃ v, markNumber o = .ok v ∧ v.getInt = .ok x := by
  cases o with
  | int v => exact ⟨.int v, rfl, by rw [show x = v from h]; rfl⟩
  | real m k =>
    refine ⟨.real m k, rfl, ?_⟩
    have hx : x = Int.tdiv m (10 ^ k : Nat) := h
    have hp : (0 : Int) < (10 ^ k : Nat) := by exact_mod_cast Nat.pow_pos (by decide)
    have e := Int.mul_tdiv_add_tmod m (10 ^ k : Nat)
    have l1 := Int.tmod_lt_of_pos m hp
    have l2 := Int.lt_tmod_of_pos m hp
    simp only [NumVal.getInt, realAsInt]
    rw [← hx] at e ⊢
    rw [if_pos ⟨by nlinarith, by nlinarith⟩, if_pos h2]
  | _ => exact absurd h (by simp [WholePartOf])

theorem markNumber_number {o : Obj} {x : Int} (h : WholePartOf o x) : ∃ v, markNumber o = .ok v := by
  cases o with
  | int v => exact ⟨_, rfl⟩
  | real m k => exact ⟨_, rfl⟩
  | _ => exact absurd h (by simp [WholePartOf])

theorem markImage_picture {image : Bytes} {h : MarkHeap} {n : MarkNode} (hm : Markable h n) :
    ∃ i, markImage image (n.box.getD none) = .ok i ∧ IsPicture image n.box i := by
  have hc := hm.corner
  have hb := hm.box
  generalize n.box = box at hc hb ⊢
  match box, hc, hb with
  | none, _, _ => exact ⟨[], rfl, rfl⟩
  | some none, _, hb => exact absurd rfl hb
  | some (some []), _, _ => exact ⟨[], rfl, rfl⟩
  | some (some [_]), _, _ => exact ⟨[], rfl, rfl⟩
  | some (some [_, _]), _, _ => exact ⟨[], rfl, rfl⟩
  | some (some [_, _, _]), _, _ => exact ⟨[], rfl, rfl⟩
  | some (some (_ :: _ :: _ :: _ :: _ :: _)), _, _ => exact ⟨[], rfl, rfl⟩
  | some (some [a, b, c, d]), hc, _ =>
    obtain ⟨u, v, x, y, ha, hb, hcx, hdy, x1, x2, y1, y2⟩ := hc a b c d rfl
    obtain ⟨na, ea⟩ := markNumber_number ha
    obtain ⟨nb, eb⟩ := markNumber_number hb
    obtain ⟨nc, ec, gc⟩ := markNumber_whole hcx (by omega) x2
    obtain ⟨nd, ed, gd⟩ := markNumber_whole hdy (by omega) y2
    refine ⟨_, ?_, x, y, hcx, hdy, rfl⟩
    simp only [Option.getD, markImage]
    rw [ea, ok_bind, eb, ok_bind, ec, ok_bind, ed, ok_bind, gc, ok_bind, gd, ok_bind, if_neg (by omega)]
    rw [show x - 60 = x - 50 - 10 by omega, show y - 45 = y - 35 - 10 by omega]

theorem hasMarkFont_mono {h g : MarkHeap} (hw : AddressesBelow h) (hl : NothingLost h g) {a : Nat} (hf : HasMarkFont h a) :
    HasMarkFont g a := by
  obtain ⟨n, r, f, h1, h2, h3, h4⟩ := hf
  obtain ⟨n', h1', -, -, -, hr⟩ := hl.node a n h1
  have lr := hw.1 a n r h1 h2
  have lf := hw.2 r f h3
  refine ⟨n', r, f, h1', hr r h2, hl.font r f lr h3, ?_⟩
  cases hm : mapFind markFontName (h.fonts f) with
  | none => rw [hm] at h4; simp at h4
  | some v => rw [hl.fonts f lf _ v hm]; rfl

theorem markOwn_spec (year : Nat) (image : Bytes) (font : Nat) {h : MarkHeap} {a : Nat} {n : MarkNode} (hw : AddressesBelow h)
    (hn : h.node a = some n) (hm : Markable h n) :
    ∃ g, markOwn year image font h a = .ok g ∧ AddressesBelow g ∧ NothingLost h g ∧ (∀ x, x ≠ a → g.node x = h.node x) ∧
      (∀ x, x ∉ pageStreams n → g.body x = h.body x) ∧ Marked year image h g a n := by
  obtain ⟨box, hbox, hbox'⟩ : ∃ box, markBox n.box = .ok box ∧ n.box.getD none = box := by
    cases hb : n.box with
    | none => exact ⟨none, rfl, rfl⟩
    | some o =>
      cases o with
      | none => exact absurd hb hm.box
      | some l => exact ⟨some l, rfl, rfl⟩
  obtain ⟨i, hi, hpic⟩ := markImage_picture (image := image) hm
  rw [hbox'] at hi
  rw [markOwn, hn]
  simp only []
  rw [hbox, ok_bind]
  by_cases hc : n.contents = .absent
  · rw [if_pos hc]
    refine ⟨h, rfl, hw, NothingLost.refl h, fun _ _ => rfl, fun _ _ => rfl, fun hx => absurd hc hx, fun hx => ?_⟩
    rw [pageStreams, hc] at hx
    simp at hx
  · rw [if_neg hc]
    obtain ⟨h1, r, n1, e1, w1, l1, o1, hn1, hr1, lr1, hf1, b1⟩ := markResources_spec hw hn hm.resources hm.font
    obtain ⟨h2, f, e2, w2, l2, hf2, lf2, b2⟩ := markFonts_spec w1 hf1
    obtain ⟨w3, l3, f3, m3, b3⟩ := markEnter_spec (f := f) font w2
    have n2 := markFonts_node e2
    have n3 := markEnter_node h2 f font
    rw [e1, ok_bind]
    simp only []
    rw [e2, ok_bind]
    simp only []
    generalize hh3 : markEnter h2 f font = h3 at *
    have body3 : h3.body = h.body := by rw [b3, b2, b1]
    have lost3 : NothingLost h h3 := l1.trans (l2.trans l3)
    have node3 : ∀ x, x ≠ a → h3.node x = h.node x := fun x hx => by rw [n3, n2]; exact o1 x hx
    have fnt3 : HasMarkFont h3 a := ⟨n1, r, f, by rw [n3, n2]; exact hn1, hr1, by rw [f3]; exact hf2, m3⟩
    have done : ∀ c l, pageStreams n = c :: l → markContents year image box h3 n.contents =
        (markSave h3 c >>= fun g => markStream year image box g ((c :: l).getLast (by simp))) →
        ∃ g, markContents year image box h3 n.contents = .ok g ∧ AddressesBelow g ∧ NothingLost h g ∧
          (∀ x, x ≠ a → g.node x = h.node x) ∧ (∀ x, x ∉ pageStreams n → g.body x = h.body x) ∧
          Marked year image h g a n := by
      intro c l hs e
      have hmb : markBytes year image box = .ok (0x0A :: (writeOps (markOps year) ++ writeInstructions i)) := by
        rw [markBytes, hi, ok_bind]
      obtain ⟨t, g, ht, eg, gg, gb, gt⟩ := markBodies (h := h3) l c (hs ▸ hm.streams)
        (fun x hx => by rw [body3]; exact hm.bodies x (hs ▸ hx)) year image box hmb
      rw [e]
      have q : NothingLost h3 g := by
        rw [gg]
        exact ⟨Nat.le_refl _, fun x m hm => ⟨m, hm, rfl, rfl, rfl, fun _ h => h⟩, fun _ _ _ h => h, fun _ _ h => h,
          fun _ _ _ _ h => h, fun _ _ _ _ => rfl⟩
      refine ⟨g, eg, ?_, lost3.trans q, ?_, ?_, fun _ => hasMarkFont_mono w3 q fnt3, fun _ => ⟨t, i, ?_, ?_, ?_⟩⟩
      · rw [gg]
        exact w3
      · intro x hx
        rw [gg]
        exact node3 x hx
      · intro x hx
        rw [gb x (hs ▸ hx), body3]
      · rw [hs, ← ht]
        exact (streamsText_congr _ fun x _ => by rw [body3]).symm
      · exact hpic
      · rw [hs, gt, writeInstructions_append, markOps_text]
        simp
    have same : pageStreams n = [] → ∀ c, n.contents = c → markContents year image box h3 c = .ok h3 →
        ∃ g, markContents year image box h3 c = .ok g ∧ AddressesBelow g ∧ NothingLost h g ∧
          (∀ x, x ≠ a → g.node x = h.node x) ∧ (∀ x, x ∉ pageStreams n → g.body x = h.body x) ∧
          Marked year image h g a n := by
      intro hs c _ e
      exact ⟨h3, e, w3, lost3, node3, fun x _ => by rw [body3], fun _ => fnt3, fun hx => absurd hs hx⟩
    cases hcn : n.contents with
    | absent => exact absurd hcn hc
    | other => exact same (by rw [pageStreams, hcn]) _ hcn rfl
    | one c =>
      have := done c [] (by rw [pageStreams, hcn]) (by rw [hcn]; rfl)
      rwa [hcn] at this
    | many l =>
      cases l with
      | nil => exact same (by rw [pageStreams, hcn]) _ hcn rfl
      | cons c l =>
        have := done c l (by rw [pageStreams, hcn]) (by rw [hcn]; rfl)
        rwa [hcn] at this

/-! ### All nodes -/

theorem markAll_spec (year : Nat) (image : Bytes) (font : Nat) (l : List Nat) :
    ∀ {h : MarkHeap}, AddressesBelow h → l.Nodup → (∀ a ∈ l, ∃ n, h.node a = some n ∧ Markable h n) → OwnStreams h l →
    ∃ g, l.foldlM (markOwn year image font) h = .ok g ∧ AddressesBelow g ∧ NothingLost h g ∧
      (∀ x, x ∉ l → g.node x = h.node x) ∧
      (∀ x, (∀ a ∈ l, ∀ n, h.node a = some n → x ∉ pageStreams n) → g.body x = h.body x) ∧
      ∀ a ∈ l, ∀ n, h.node a = some n → Marked year image h g a n := by
  induction l with
  | nil =>
    intro h hw _ _ _
    exact ⟨h, rfl, hw, NothingLost.refl h, fun _ _ => rfl, fun _ _ => rfl, fun a ha => by cases ha⟩
  | cons a l ih =>
    intro h hw hd hm ho
    obtain ⟨n, hn, hma⟩ := hm a (by simp)
    obtain ⟨g1, e1, w1, l1, o1, b1, m1⟩ := markOwn_spec year image font hw hn hma
    have hal : a ∉ l := (List.nodup_cons.1 hd).1
    have node1 : ∀ b ∈ l, g1.node b = h.node b := fun b hb => o1 b (by rintro rfl; exact hal hb)
    have apart : ∀ b ∈ l, ∀ m, h.node b = some m → ∀ x ∈ pageStreams m, x ∉ pageStreams n := by
      intro b hb m hbm x hx
      exact ho b (by simp [hb]) a (by simp) (by rintro rfl; exact hal hb) m n hbm hn x hx
    obtain ⟨g2, e2, w2, l2, o2, b2, m2⟩ := ih w1 (List.nodup_cons.1 hd).2
      (by
        intro b hb
        obtain ⟨m, hbm, hmm⟩ := hm b (by simp [hb])
        refine ⟨m, by rw [node1 b hb]; exact hbm, hmm.resources, ?_, hmm.box, hmm.corner, hmm.streams, ?_⟩
        · intro r hr
          exact l1.sound r (hw.1 b m r hbm hr) (hmm.font r hr)
        · intro x hx
          rw [b1 x (apart b hb m hbm x hx)]
          exact hmm.bodies x hx)
      (by
        intro b hb c hc hbc m k hbm hck
        rw [node1 b hb] at hbm
        rw [node1 c hc] at hck
        exact ho b (by simp [hb]) c (by simp [hc]) hbc m k hbm hck)
    refine ⟨g2, ?_, w2, l1.trans l2, ?_, ?_, ?_⟩
    · rw [List.foldlM_cons, e1, ok_bind, e2]
    · intro x hx
      simp only [List.mem_cons, not_or] at hx
      rw [o2 x hx.2, o1 x hx.1]
    · intro x hx
      rw [b2 x (fun b hb m hbm => hx b (by simp [hb]) m (by rw [← node1 b hb]; exact hbm)), b1 x (hx a (by simp) n hn)]
    · intro b hb m hbm
      rcases List.mem_cons.1 hb with rfl | hb
      · rw [hn] at hbm
        simp only [Option.some.injEq] at hbm
        subst hbm
        obtain ⟨q1, q2⟩ := m1
        refine ⟨fun hx => hasMarkFont_mono w1 l2 (q1 hx), fun hx => ?_⟩
        obtain ⟨t, i, h1, h2, h3⟩ := q2 hx
        refine ⟨t, i, h1, h2, ?_⟩
        rw [← h3]
        refine streamsText_congr _ fun x hx => b2 x fun c hc m hcm hxm => ?_
        rw [node1 c hc] at hcm
        exact apart c hc m hcm x hxm hx
      · obtain ⟨q1, q2⟩ := m2 b hb m (by rw [node1 b hb]; exact hbm)
        refine ⟨q1, fun hx => ?_⟩
        obtain ⟨t, i, h1, h2, h3⟩ := q2 hx
        refine ⟨t, i, ?_, h2, h3⟩
        rw [← h1]
        exact (streamsText_congr _ fun x hx => b1 x (apart b hb m hbm x hx)).symm

/-! ### C111 -/

/-- **C111, with a licence.**  Nothing is marked. -/
theorem C111_licensed (year : Nat) (image : Bytes) (fuel : Nat) (pages : Option Nat) (h : MarkHeap) :
    applyWatermark year image true fuel pages h = .ok h := rfl

/-- **C111, partial: without a licence.**  In a document whose page tree is a tree, whose pages share no streams and
whose entries have the right types, saving succeeds and every node below the root that has contents is marked: its
content becomes `q`, the content it had, and the watermark, and it has resources with the font of the watermark.  Nothing
else changes: no node loses children, contents, box or resources, no font is lost or changed, and the streams that are
not the content of a node are the same.  Missing: other documents, and pages whose contents or resources are inherited,
shared or missing; see the counterexamples. -/
theorem C111_marked_partial (year : Nat) (image : Bytes) (p : Nat) (n : MarkNode) (ks l : List Nat) (h : MarkHeap)
    (hw : AddressesBelow h) (hp : h.node p = some n) (hk : n.kids = some ks) (hl : PageNodes h ks l) (hd : l.Nodup)
    (hm : ∀ a ∈ l, ∃ n, h.node a = some n ∧ Markable h n) (ho : OwnStreams h l) :
    ∃ N h', (∀ fuel, N ≤ fuel → applyWatermark year image false fuel (some p) h = .ok h') ∧ NothingLost h h' ∧
      (∀ x, x ∉ l → h'.node x = h.node x) ∧
      (∀ x, (∀ a ∈ l, ∀ n, h.node a = some n → x ∉ pageStreams n) → h'.body x = h.body x) ∧
      ∀ a ∈ l, ∀ n, h.node a = some n → Marked year image h h' a n := by
  obtain ⟨N, hN⟩ := markNode_visits year image h.next hl
  have hw' : AddressesBelow { h with next := h.next + 1 } :=
    ⟨fun a n r hn hr => Nat.lt_succ_of_lt (hw.1 a n r hn hr), fun r f hf => Nat.lt_succ_of_lt (hw.2 r f hf)⟩
  obtain ⟨g, e, -, l1, o1, b1, m1⟩ := markAll_spec year image h.next l hw' hd
    (fun a ha => by
      obtain ⟨n, hn, hm⟩ := hm a ha
      exact ⟨n, hn, hm.resources, hm.font, hm.box, hm.corner, hm.streams, hm.bodies⟩) ho
  refine ⟨N, g, ?_, ?_, o1, b1, ?_⟩
  · intro fuel hf
    rw [applyWatermark, if_neg (by simp), hp]
    simp only []
    rw [hk]
    simp only []
    rw [hN fuel hf { h with next := h.next + 1 } (fun _ => rfl)]
    exact e
  · have l0 : NothingLost h { h with next := h.next + 1 } :=
      ⟨Nat.le_succ _, fun x m hm => ⟨m, hm, rfl, rfl, rfl, fun _ h => h⟩, fun _ _ _ h => h, fun _ _ h => h,
          fun _ _ _ _ h => h, fun _ _ _ _ => rfl⟩
    exact l0.trans l1
  · intro a ha n hn
    obtain ⟨q1, q2⟩ := m1 a ha n hn
    refine ⟨q1, fun hx => ?_⟩
    obtain ⟨t, i, h1, h2, h3⟩ := q2 hx
    refine ⟨t, i, ?_, h2, h3⟩
    rw [← h1]
    exact (streamsText_congr (h := h) (g := { h with next := h.next + 1 }) _ fun x _ => rfl).symm

theorem wholePart_inj {o : Obj} {x y : Int} (h : WholePartOf o x) (h' : WholePartOf o y) : x = y := by
  cases o with
  | int v => exact Eq.trans h (Eq.symm h')
  | real m k => exact Eq.trans h (Eq.symm h')
  | _ => exact absurd h (by simp [WholePartOf])

instance (w : Bytes) : Decidable (OperatorWord w) := by
  unfold OperatorWord IsDigit
  infer_instance

theorem opSavable_plain {o : COp} (h : ∀ x ∈ o.operands, Savable x ∧ NoRef x) (hw : OperatorWord o.op)
    (hf : o.op ∉ [b! "BT", b! "ET", b! "BI", b! "ID", b! "EI", b! "Tf", b! "Tj", b! "TJ"]) : OpSavable o := by
  refine ⟨h, hw, fun hx => ?_, fun hx => ?_, fun hx => ?_, fun hx => ?_⟩
  · exact absurd hx (fun hx => hf (by
      simp only [List.mem_cons, List.not_mem_nil, or_false] at hx ⊢
      tauto))
  · exact absurd (by rw [hx]; decide) hf
  · exact absurd (by rw [hx]; decide) hf
  · exact absurd (by rw [hx]; decide) hf

theorem picture_savable {image : Bytes} {h : MarkHeap} {n : MarkNode} {i : List Instr} (hm : Markable h n)
    (hi : IsPicture image n.box i) (he : NoEndMark (10 :: image)) : ∀ x ∈ i, InstrSavable x := by
  have hc := hm.corner
  generalize n.box = box at hc hi
  match box, hc, hi with
  | some (some [a, b, c, d]), hc, ⟨x, y, hx, hy, e⟩ =>
    obtain ⟨u, v, x', y', -, -, hcx, hdy, x1, x2, y1, y2⟩ := hc a b c d rfl
    have ex := wholePart_inj hx hcx
    have ey := wholePart_inj hy hdy
    subst ex
    subst ey
    subst e
    intro z hz
    simp only [List.mem_cons, List.not_mem_nil, or_false] at hz
    rcases hz with rfl | rfl
    · refine ⟨opSavable_plain ?_ (show OperatorWord (b! "cm") by decide +kernel)
        (show b! "cm" ∉ [b! "BT", b! "ET", b! "BI", b! "ID", b! "EI", b! "Tf", b! "Tj", b! "TJ"] by decide +kernel),
        show b! "cm" ≠ b! "BT" by decide, show b! "cm" ≠ b! "BI" by decide⟩
      intro w hw
      simp only [List.mem_cons, List.not_mem_nil, or_false] at hw
      rcases hw with rfl | rfl | rfl | rfl | rfl | rfl <;> exact ⟨.int _ (by omega) (by omega), .simple _ (by simp [Simple])⟩
    · refine ⟨by unfold SortedKeys; decide +kernel, ?_, he⟩
      intro w hw
      simp only [List.mem_cons, List.not_mem_nil, or_false] at hw
      rcases hw with rfl | rfl | rfl | rfl | rfl
      · exact ⟨.int _ (by omega) (by omega), .simple _ (by simp [Simple]), by simp⟩
      · exact ⟨.name _, .simple _ (by simp [Simple]), by simp⟩
      · exact ⟨.name _, .simple _ (by simp [Simple]), by simp⟩
      · exact ⟨.int _ (by omega) (by omega), .simple _ (by simp [Simple]), by simp⟩
      · exact ⟨.int _ (by omega) (by omega), .simple _ (by simp [Simple]), by simp⟩
  | none, _, e => intro x hx; rw [show i = [] from e] at hx; cases hx
  | some none, _, e => intro x hx; rw [show i = [] from e] at hx; cases hx
  | some (some []), _, e => intro x hx; rw [show i = [] from e] at hx; cases hx
  | some (some [_]), _, e => intro x hx; rw [show i = [] from e] at hx; cases hx
  | some (some [_, _]), _, e => intro x hx; rw [show i = [] from e] at hx; cases hx
  | some (some [_, _, _]), _, e => intro x hx; rw [show i = [] from e] at hx; cases hx
  | some (some (_ :: _ :: _ :: _ :: _ :: _)), _, e => intro x hx; rw [show i = [] from e] at hx; cases hx

theorem markInstructions_savable (year : Nat) : ∀ x ∈ markInstructions year, InstrSavable x := by
  intro x hx
  simp only [markInstructions, List.mem_cons, List.not_mem_nil, or_false] at hx
  rcases hx with rfl | rfl
  · exact ⟨opSavable_plain (by simp) (by decide +kernel) (by decide +kernel), by decide, by decide⟩
  · intro o ho
    simp only [List.mem_cons, List.not_mem_nil, or_false] at ho
    rcases ho with rfl | rfl | rfl | rfl | rfl
    · refine ⟨⟨?_, by decide +kernel, by decide, fun _ => ⟨_, _, rfl, Or.inl ⟨8, rfl⟩⟩, by simp, by simp⟩, by decide⟩
      intro w hw
      simp only [List.mem_cons, List.not_mem_nil, or_false] at hw
      rcases hw with rfl | rfl
      · exact ⟨.name _, .simple _ (by simp [Simple])⟩
      · exact ⟨.int _ (by omega) (by omega), .simple _ (by simp [Simple])⟩
    · refine ⟨opSavable_plain ?_ (by decide +kernel) (by decide +kernel), by decide⟩
      intro w hw
      simp only [List.mem_cons, List.not_mem_nil, or_false] at hw
      rcases hw with rfl | rfl | rfl
      · exact ⟨.int _ (by omega) (by omega), .simple _ (by simp [Simple])⟩
      · exact ⟨.int _ (by omega) (by omega), .simple _ (by simp [Simple])⟩
      · exact ⟨.real _ _ (by omega), .simple _ (by simp [Simple])⟩
    · refine ⟨opSavable_plain ?_ (by decide +kernel) (by decide +kernel), by decide⟩
      intro w hw
      simp only [List.mem_cons, List.not_mem_nil, or_false] at hw
      rcases hw with rfl | rfl | rfl
      · exact ⟨.int _ (by omega) (by omega), .simple _ (by simp [Simple])⟩
      · exact ⟨.int _ (by omega) (by omega), .simple _ (by simp [Simple])⟩
      · exact ⟨.real _ _ (by omega), .simple _ (by simp [Simple])⟩
    · refine ⟨opSavable_plain ?_ (by decide +kernel) (by decide +kernel), by decide⟩
      intro w hw
      simp only [List.mem_cons, List.not_mem_nil, or_false] at hw
      rcases hw with rfl | rfl <;> exact ⟨.int _ (by omega) (by omega), .simple _ (by simp [Simple])⟩
    · refine ⟨⟨?_, show OperatorWord (b! "Tj") by decide +kernel, by simp, by simp, fun _ => ⟨_, Or.inl rfl⟩, by simp⟩,
        show b! "Tj" ≠ b! "ET" by decide⟩
      intro w hw
      simp only [List.mem_cons, List.not_mem_nil, or_false] at hw
      subst hw
      exact ⟨.lit _, .simple _ (by simp [Simple])⟩

/-- **C111, reading.**  A page that is marked shows what it showed before, between `q` and `Q`, and then the watermark: the
instructions are read back, provided the data of the image have no end mark in them. -/
theorem C111_reads (year : Nat) (image : Bytes) (h h' : MarkHeap) (a : Nat) (n : MarkNode) (is : List Instr) (t : Bytes)
    (hm : Markable h n) (he : NoEndMark (10 :: image)) (hd : Marked year image h h' a n) (hs : pageStreams n ≠ [])
    (ht : streamsText h (pageStreams n) = some t) (hc : ContentText is t) :
    ∃ t' i, streamsText h' (pageStreams n) = some t' ∧ IsPicture image n.box i ∧
      readInstructions t' = .ok (.op ⟨[], b! "q"⟩ :: (is ++ markInstructions year ++ i.map reread)) := by
  obtain ⟨t0, i, h1, h2, h3⟩ := hd.2 hs
  rw [ht] at h1
  simp only [Option.some.injEq] at h1
  subst h1
  refine ⟨_, i, h3, h2, ?_⟩
  have w := writeInstructions_text (markInstructions year ++ i)
    (fun x hx => (List.mem_append.1 hx).elim (markInstructions_savable year x) (picture_savable hm h2 he x)) [0x0A] sepLf
  have q := writeInstructions_text [.op ⟨[], b! "q"⟩]
    (fun x hx => by
      simp only [List.mem_cons, List.not_mem_nil, or_false] at hx
      subst hx
      exact ⟨opSavable_plain (by simp) (by decide +kernel) (by decide +kernel), by decide, by decide⟩) [] .nil
  have c1 := contentText_append hc w (Or.inl (by
    intro c hc
    simp only [List.cons_append, List.nil_append, List.head?_cons, Option.mem_def, Option.some.injEq] at hc
    subst hc
    decide))
  have c2 := contentText_append q c1 (Or.inr ⟨0x0A, by decide +kernel, by decide⟩)
  have r := contentText_reads c2
  have e : (List.map reread [Instr.op ⟨[], b! "q"⟩] ++ (is ++ (markInstructions year ++ i).map reread)) =
      .op ⟨[], b! "q"⟩ :: (is ++ markInstructions year ++ i.map reread) := by
    simp [reread, markInstructions]
  rw [e] at r
  rw [← r]
  simp [writeInstructions, writeInstr, writeOp, writeOperands]

/-! ### The hypotheses are met -/

/-- A document: below the root 0 a node 1 with page 2, whose content are the streams 10 and 11, and page 3 without
resources, whose content is stream 12. -/
def sampleMarkHeap : MarkHeap where
  node := fun a =>
    if a = 0 then some ⟨some [1, 3], .at 4, .absent, some (some [.int 0, .int 0, .int 600, .int 800])⟩
    else if a = 1 then some ⟨some [2], .absent, .absent, none⟩
    else if a = 2 then some ⟨none, .at 5, .many [10, 11], some (some [.int 0, .int 0, .real 5955 1, .int 842])⟩
    else if a = 3 then some ⟨none, .absent, .one 12, none⟩
    else none
  font := fun r => if r = 4 then .at 6 else if r = 5 then .at 7 else .absent
  fonts := fun f => if f = 7 then [(b! "F1", 8)] else []
  body := fun s => if s = 10 then some (b! "0 0 m ") else if s = 11 then some (b! "9 9 l S") else if s = 12 then some (b! "f") else none
  next := 20

theorem sample_pageNodes : PageNodes sampleMarkHeap [1, 3] [2, 1, 3] :=
  .cons 1 ⟨some [2], .absent, .absent, none⟩ [3] [2] [3] rfl
    (.cons 2 _ [] [] [] rfl .nil .nil) (.cons 3 _ [] [] [] rfl .nil .nil)

theorem sample_addresses : AddressesBelow sampleMarkHeap := by
  constructor
  · intro a n r hn hr
    simp only [sampleMarkHeap] at hn ⊢
    split at hn
    · simp only [Option.some.injEq] at hn; subst hn; simp only [MarkEntry.at.injEq] at hr; omega
    split at hn
    · simp only [Option.some.injEq] at hn; subst hn; simp at hr
    split at hn
    · simp only [Option.some.injEq] at hn; subst hn; simp only [MarkEntry.at.injEq] at hr; omega
    split at hn
    · simp only [Option.some.injEq] at hn; subst hn; simp at hr
    · simp at hn
  · intro r f hf
    simp only [sampleMarkHeap] at hf ⊢
    split at hf
    · simp only [MarkEntry.at.injEq] at hf; omega
    split at hf
    · simp only [MarkEntry.at.injEq] at hf; omega
    · simp at hf

theorem sample_markable : ∀ a ∈ [2, 1, 3], ∃ n, sampleMarkHeap.node a = some n ∧ Markable sampleMarkHeap n := by
  intro a ha
  simp only [List.mem_cons, List.not_mem_nil, or_false] at ha
  rcases ha with rfl | rfl | rfl
  · refine ⟨_, rfl, by simp, ?_, by simp, ?_, by simp [pageStreams], ?_⟩
    · intro r hr
      simp only [MarkEntry.at.injEq] at hr
      subst hr
      decide
    · intro a b c d h
      simp only [Option.some.injEq, List.cons.injEq, and_true] at h
      obtain ⟨rfl, rfl, rfl, rfl⟩ := h
      exact ⟨0, 0, 595, 842, rfl, rfl, show (595 : Int) = Int.tdiv 5955 (10 ^ 1 : Nat) by decide, rfl, by decide, by decide, by decide, by decide⟩
    · intro x hx
      simp only [pageStreams, List.mem_cons, List.not_mem_nil, or_false] at hx
      rcases hx with rfl | rfl <;> exact ⟨_, rfl⟩
  · exact ⟨_, rfl, by simp, by simp, by simp, by simp, by simp [pageStreams], by simp [pageStreams]⟩
  · refine ⟨_, rfl, by simp, by simp, by simp, by simp, by simp [pageStreams], ?_⟩
    intro x hx
    simp only [pageStreams, List.mem_cons, List.not_mem_nil, or_false] at hx
    subst hx
    exact ⟨_, rfl⟩

theorem sample_ownStreams : OwnStreams sampleMarkHeap [2, 1, 3] := by
  intro a ha b hb hab n m hn hm x hx hx'
  simp only [List.mem_cons, List.not_mem_nil, or_false] at ha hb
  rcases ha with rfl | rfl | rfl <;> rcases hb with rfl | rfl | rfl <;>
    simp only [sampleMarkHeap] at hn hm <;> simp at hn hm hab <;> subst hn <;> subst hm <;>
    simp [pageStreams] at hx hx' <;> omega

example : ∃ N h', (∀ fuel, N ≤ fuel → applyWatermark 2024 (b! "data") false fuel (some 0) sampleMarkHeap = .ok h') ∧
    NothingLost sampleMarkHeap h' ∧ HasMarkFont h' 2 ∧ HasMarkFont h' 3 ∧ mapFind (b! "F1") (h'.fonts 7) = some 8 := by
  obtain ⟨N, h', e, l, -, -, m⟩ := C111_marked_partial 2024 (b! "data") 0 _ [1, 3] [2, 1, 3] sampleMarkHeap sample_addresses rfl rfl
    sample_pageNodes (by decide) sample_markable sample_ownStreams
  exact ⟨N, h', e, l, (m 2 (by decide) _ rfl).1 (by simp), (m 3 (by decide) _ rfl).1 (by simp),
    l.fonts 7 (by decide) _ _ rfl⟩

example : (match applyWatermark 2024 (b! "data") false 5 (some 0) sampleMarkHeap with
    | .ok h => (h.body 10, (h.body 11).map (·.take 12), (h.body 12).map (·.take 8))
    | .error _ => (none, none, none)) = (some (b! "q\n0 0 m "), some (b! "9 9 l S\nQ\nBT"), some (b! "q\nf\nQ\nBT")) := by
  decide +kernel

example : NoEndMark (10 :: b! "data") := by simp [NoEndMark]

/-! ### Counterexamples -/

/-- The resources of a page are those of its parent, if it has none.  Marking gives the page resources of its own, with no
font but that of the watermark, so that the fonts of the parent are no longer found for its text. -/
theorem C111_inherited_counterexample (year : Nat) (image : Bytes) (p a s : Nat) (n m : MarkNode) (b : Bytes) (h : MarkHeap)
    (hp : h.node p = some n) (hk : n.kids = some [a]) (ha : h.node a = some m) (hmk : m.kids = none) (hr : m.resources = .absent)
    (hc : m.contents = .one s) (hb : m.box = none) (hs : h.body s = some b) :
    ∃ h' m' r f font, (∀ fuel, applyWatermark year image false (fuel + 1) (some p) h = .ok h') ∧ h'.node a = some m' ∧
      m'.resources = .at r ∧ h'.font r = .at f ∧ h'.fonts f = [(markFontName, font)] := by
  have e : ∀ fuel, applyWatermark year image false (fuel + 1) (some p) h =
      markOwn year image h.next { h with next := h.next + 1 } a := by
    intro fuel
    rw [applyWatermark, if_neg (by simp), hp]
    simp only []
    rw [hk]
    simp only [List.foldlM_cons, List.foldlM_nil, markNode, ha, hmk, Option.getD]
    rw [pure_bind, bind_pure]
  obtain ⟨g, hg⟩ : ∃ g, markOwn year image h.next { h with next := h.next + 1 } a = .ok g ∧ ∃ m' r f font, g.node a = some m' ∧
      m'.resources = .at r ∧ g.font r = .at f ∧ g.fonts f = [(markFontName, font)] := by
    rw [markOwn]
    simp only [ha, hb, hc, markBox, ok_bind, markResources, hr, markFonts, if_pos, markEnter, mapFind]
    simp [mapInsert, markContents, markSave, MarkHeap.changeBody, hs, markStream, markBytes, markImage, bind, Except.bind]
  obtain ⟨h1, m', r, f, font, h2, h3, h4, h5⟩ := hg
  exact ⟨g, m', r, f, font, fun fuel => (e fuel).trans h1, h2, h3, h4, h5⟩

/-- A stream that belongs to two pages is marked twice, on both. -/
theorem C111_shared_counterexample (year : Nat) (image : Bytes) (p a c s : Nat) (n m k : MarkNode) (b : Bytes) (r f r' f' : Nat)
    (h : MarkHeap) (hp : h.node p = some n) (hk : n.kids = some [a, c]) (ha : h.node a = some m) (hc : h.node c = some k)
    (hmk : m.kids = none) (hkk : k.kids = none) (hmr : m.resources = .at r) (hkr : k.resources = .at r') (hf : h.font r = .at f)
    (hf' : h.font r' = .at f') (hmc : m.contents = .one s) (hkc : k.contents = .one s) (hmb : m.box = none) (hkb : k.box = none)
    (hs : h.body s = some b) :
    ∃ h', (∀ fuel, applyWatermark year image false (fuel + 1) (some p) h = .ok h') ∧
      h'.body s = some (b! "q\nq\n" ++ b ++ b! "\n" ++ writeInstructions (markInstructions year) ++ b! "\n" ++
        writeInstructions (markInstructions year)) := by
  have own : ∀ (g : MarkHeap) (x : Nat) (w : MarkNode) (rx fx : Nat) (bx : Bytes), g.node x = some w → w.resources = .at rx →
      g.font rx = .at fx → w.contents = .one s → w.box = none → g.body s = some bx →
      ∃ g', markOwn year image h.next g x = .ok g' ∧ g'.node = g.node ∧ g'.font = g.font ∧
        g'.body s = some (b! "q\n" ++ bx ++ b! "\n" ++ writeInstructions (markInstructions year)) := by
    intro g x w rx fx bx h1 h2 h3 h4 h5 h6
    rw [markOwn, h1]
    simp only [h5, h4, h2, markBox, ok_bind, markResources, markFonts, h3]
    have hb : (markEnter g fx h.next).body s = some bx := by
      rw [markEnter]
      split <;> exact h6
    have hn : (markEnter g fx h.next).node = g.node := markEnter_node _ _ _
    have hf : (markEnter g fx h.next).font = g.font := by
      rw [markEnter]
      split <;> rfl
    generalize markEnter g fx h.next = g1 at hb hn hf
    simp only [markContents, markSave, changeBody_spec _ hb, ok_bind, markStream, markBytes, markImage]
    rw [changeBody_spec _ (b := b! "q\n" ++ bx) (by simp)]
    refine ⟨_, by rw [if_neg (by simp)], ?_, ?_, ?_⟩
    · exact hn
    · exact hf
    · simp [writeInstructions, markOps_text]
  obtain ⟨g1, e1, n1, f1, b1⟩ := own { h with next := h.next + 1 } a m r f b ha hmr hf hmc hmb hs
  obtain ⟨g2, e2, n2, f2, b2⟩ := own g1 c k r' f' _ (by rw [n1]; exact hc) hkr (by rw [f1]; exact hf') hkc hkb b1
  refine ⟨g2, ?_, ?_⟩
  · intro fuel
    rw [applyWatermark, if_neg (by simp), hp]
    simp only []
    rw [hk]
    have hc1 : g1.node c = some k := by rw [n1]; exact hc
    simp only [List.foldlM_cons, List.foldlM_nil, markNode, ha, hmk, Option.getD]
    rw [pure_bind, e1, ok_bind]
    simp only [hc1, hkk, List.foldlM_nil]
    rw [pure_bind, e2]
    rfl
  · rw [b2]
    simp

/-- A page tree with a node among its own descendants is walked for ever. -/
theorem C111_cycle_counterexample (year : Nat) (image : Bytes) (fuel p : Nat) (n : MarkNode) (ks : List Nat) (h : MarkHeap)
    (hp : h.node p = some n) (hk : n.kids = some (p :: ks)) :
    applyWatermark year image false fuel (some p) h = .error .timeout := by
  have e : ∀ fuel font (g : MarkHeap), g.node p = some n → markNode year image font fuel g p = .error .timeout := by
    intro fuel font
    induction fuel with
    | zero => intro g _; rfl
    | succ fuel ih =>
      intro g hg
      rw [markNode, hg]
      simp only [hk, Option.getD, List.foldlM_cons]
      rw [ih g hg]
      rfl
  rw [applyWatermark, if_neg (by simp), hp]
  simp only []
  rw [hk]
  simp only [List.foldlM_cons]
  rw [e fuel h.next _ (by exact hp)]
  rfl

/-- A page with a stream that cannot be decoded, although the library does not need its content for saving, makes saving
fail. -/
theorem C111_body_counterexample (year : Nat) (image : Bytes) (p a s r f : Nat) (n m : MarkNode) (ks : List Nat) (h : MarkHeap)
    (hp : h.node p = some n) (hk : n.kids = some (a :: ks)) (ha : h.node a = some m) (hmk : m.kids = none)
    (hr : m.resources = .at r) (hf : h.font r = .at f) (hc : m.contents = .one s) (hb : m.box = none) (hs : h.body s = none)
    (fuel : Nat) : applyWatermark year image false (fuel + 1) (some p) h = .error .throw := by
  rw [applyWatermark, if_neg (by simp), hp]
  simp only []
  rw [hk]
  simp only [List.foldlM_cons, markNode, ha, hmk, Option.getD, List.foldlM_nil]
  rw [pure_bind, markOwn]
  simp only [ha, hb, hc, markBox, ok_bind, markResources, hr, markFonts, hf]
  have hs' : (markEnter { h with next := h.next + 1 } f h.next).body s = none := by
    rw [markEnter]
    split <;> exact hs
  rw [if_neg (by simp), markContents, markSave, MarkHeap.changeBody, hs']
  rfl

/-- A page without contents is not marked: a file of empty pages has no watermark, whatever else is on them. -/
theorem C111_empty_counterexample (year : Nat) (image : Bytes) (p a : Nat) (n m : MarkNode) (h : MarkHeap)
    (hp : h.node p = some n) (hk : n.kids = some [a]) (ha : h.node a = some m) (hmk : m.kids = none) (hc : m.contents = .absent)
    (hb : m.box = none) (fuel : Nat) :
    applyWatermark year image false (fuel + 1) (some p) h = .ok { h with next := h.next + 1 } := by
  rw [applyWatermark, if_neg (by simp), hp]
  simp only []
  rw [hk]
  simp only [List.foldlM_cons, markNode, ha, hmk, Option.getD, List.foldlM_nil]
  rw [pure_bind, markOwn]
  simp only [ha, hb, hc, markBox, ok_bind, if_pos]
  rfl

end VPdf
