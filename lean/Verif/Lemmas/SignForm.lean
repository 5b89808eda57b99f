import Verif.Spec.SignForm
import Verif.Lemmas.CopyObjects
import Verif.Lemmas.Destinations
import Verif.Lemmas.NewDocument
import Verif.Props.FormFields
import Verif.Props.PageTree

/-! Lemmas about the changes of a document that is signed. -/
namespace VPdf
open Spec (Absent HasEntry Refers ListEntry entryRef signedObjects Signable SignedBy BothFlags Occurs Roomy StoredTree pagesOf)

theorem part_with : ∀ {p : List Bytes} {o x : Obj} (v : Obj), partAt o p = some x → partAt (withPart o p v) p = some v
  | [], _, _, v, _ => rfl
  | k :: ks, o, x, v, h => by
    cases o with
    | dict d =>
      unfold partAt at h
      unfold withPart
      cases e : mapFind k d with
      | none => rw [e] at h; cases h
      | some y =>
        rw [e] at h
        dsimp only at h ⊢
        unfold partAt
        rw [mapFind_replace, if_pos rfl, e]
        exact part_with v h
    | _ => cases h

theorem part_append : ∀ {p : List Bytes} {o : Obj} {d : Dict} (k : Bytes), partAt o p = some (.dict d) → partAt o (p ++ [k]) = mapFind k d
  | [], o, d, k, h => by
    cases Option.some.inj h
    show partAt (.dict d) [k] = _
    unfold partAt
    cases mapFind k d <;> rfl
  | q :: ks, o, d, k, h => by
    cases o with
    | dict e =>
      unfold partAt at h
      show partAt (.dict e) (q :: (ks ++ [k])) = _
      unfold partAt
      cases he : mapFind q e with
      | none => rw [he] at h; cases h
      | some y => rw [he] at h; exact part_append k h
    | _ => cases h

theorem with_append : ∀ {p : List Bytes} {o : Obj} {d : Dict} {k : Bytes} {x : Obj} (v : Obj), partAt o p = some (.dict d) →
    mapFind k d = some x → withPart o (p ++ [k]) v = withPart o p (.dict (replaceEntry k v d))
  | [], o, d, k, x, v, h, hk => by
    cases Option.some.inj h
    show withPart (.dict d) [k] v = .dict (replaceEntry k v d)
    unfold withPart
    rw [hk]
    rfl
  | q :: ks, o, d, k, x, v, h, hk => by
    cases o with
    | dict e =>
      unfold partAt at h
      show withPart (.dict e) (q :: (ks ++ [k])) v = _
      unfold withPart
      cases he : mapFind q e with
      | none => rfl
      | some y =>
        rw [he] at h
        dsimp only at h ⊢
        rw [with_append v h hk]
    | _ => cases h

/-- What lies around a changed part stays. -/
def KeepsAround (s s' : PStore) (l : Loc) : Prop := ∀ k ks, l.2 = k :: ks → ∀ cd, s l.1 = .dict cd →
  ∃ cd', s' l.1 = .dict cd' ∧ ∀ q, q ≠ k → mapFind q cd' = mapFind q cd

/-- A change of the dictionary at a place, in the entries `ks`, and of the objects `rs`. -/
structure FormStep (s s' : PStore) (l : Loc) (d d' : Dict) (ks : List Bytes) (rs : List ObjRef) : Prop where
  there : objAt s' l = some (.dict d')
  same : ∀ q, q ∉ ks → mapFind q d' = mapFind q d
  around : KeepsAround s s' l
  frame : ∀ r, r ≠ l.1 → r ∉ rs → s' r = s r

theorem FormStep.trans {s s' s'' : PStore} {l : Loc} {d d' d'' : Dict} {ks ks' : List Bytes} {rs rs' : List ObjRef}
    (h : FormStep s s' l d d' ks rs) (h' : FormStep s' s'' l d' d'' ks' rs') : FormStep s s'' l d d'' (ks ++ ks') (rs ++ rs') where
  there := h'.there
  same q hq := by
    rw [h'.same q (fun hn => hq (List.mem_append.mpr (.inr hn))), h.same q (fun hn => hq (List.mem_append.mpr (.inl hn)))]
  around k ks hk cd hcd := by
    obtain ⟨cd', h1, h2⟩ := h.around k ks hk cd hcd
    obtain ⟨cd'', h3, h4⟩ := h'.around k ks hk cd' h1
    exact ⟨cd'', h3, fun q hq => (h4 q hq).trans (h2 q hq)⟩
  frame r hr hn := by
    rw [h'.frame r hr (fun hm => hn (List.mem_append.mpr (.inr hm))), h.frame r hr (fun hm => hn (List.mem_append.mpr (.inl hm)))]

theorem formStep_same {s : PStore} {l : Loc} {d : Dict} (h : objAt s l = some (.dict d)) (ks : List Bytes) (rs : List ObjRef) :
    FormStep s s l d d ks rs :=
  ⟨h, fun _ _ => rfl, fun _ _ _ cd hcd => ⟨cd, hcd, fun _ _ => rfl⟩, fun _ _ _ => rfl⟩

theorem putAt_around {s : PStore} {l : Loc} {x : Obj} (h : objAt s l = some x) (v : Obj) : KeepsAround s (putAt s l v) l := by
  intro k ks hk cd hcd
  unfold objAt at h
  unfold putAt
  rw [store_at, hk, hcd]
  rw [hk, hcd] at h
  unfold partAt at h
  unfold withPart
  cases e : mapFind k cd with
  | none => rw [e] at h; cases h
  | some y =>
    refine ⟨_, rfl, fun q hq => ?_⟩
    rw [mapFind_replace, if_neg hq]

theorem putAt_step {s : PStore} {l : Loc} {d d' : Dict} {ks : List Bytes} (h : objAt s l = some (.dict d))
    (hd : ∀ q, q ∉ ks → mapFind q d' = mapFind q d) (rs : List ObjRef) : FormStep s (putAt s l (.dict d')) l d d' ks rs where
  there := by unfold objAt putAt; rw [store_at]; exact part_with _ h
  same := hd
  around := putAt_around h _
  frame r hr _ := store_other _ hr _

theorem entryRef_congr {d d' : Dict} {k : Bytes} (h : mapFind k d' = mapFind k d) : entryRef d' k = entryRef d k := by
  unfold entryRef; rw [h]

theorem hasEntry_moved {s s' : PStore} {d d' : Dict} {k : Bytes} {v : Obj} (h : HasEntry s d k v) (hk : mapFind k d' = mapFind k d)
    (hs : ∀ r ∈ entryRef d k, s' r = s r) : HasEntry s' d' k v := by
  refine ⟨h.1, ?_⟩
  rw [hk]
  rcases h.2 with h1 | ⟨n, g, h1, h2⟩
  · exact .inl h1
  · refine .inr ⟨n, g, h1, ?_⟩
    rw [hs (n, g) (by unfold entryRef; rw [h1]; exact List.mem_singleton.mpr rfl), h2]

theorem dictIn_of {s : PStore} {l : Loc} {d : Dict} (h : objAt s l = some (.dict d)) : dictIn s l = .ok d := by
  unfold dictIn; rw [h]

/-- An entry that is made if there is none. -/
theorem ensure_step {s : PStore} {l : Loc} {d : Dict} {k : Bytes} {v old : Obj} (h : objAt s l = some (.dict d))
    (hv : ∀ n g, v ≠ .ref n g) (ho : (Absent d k ∧ old = v) ∨ HasEntry s d k old) :
    ∃ s' d', ensureEntry s l k v = .ok s' ∧ FormStep s s' l d d' [k] [] ∧ entryRef d' k = entryRef d k ∧
      HasEntry s' d' k old := by
  unfold ensureEntry
  rw [dictIn_of h, ok_bind]
  rcases ho with ⟨ha, ho⟩ | ho
  · have hn := absent_iff.mp ha
    rw [hn]
    dsimp only
    have hi := mapFind_insert_new (v := v) hn
    refine ⟨_, mapInsert k v d, rfl, putAt_step h (fun q hq => mapFind_insert_ne (fun e => hq (List.mem_singleton.mpr e))) _, ?_, ?_⟩
    · unfold entryRef
      rw [hi, hn]
      cases v <;> first | rfl | exact absurd rfl (hv _ _)
    · subst ho; exact ⟨hv, .inl hi⟩
  · obtain ⟨o, hm⟩ := find_of_has ho
    rw [hm]
    exact ⟨s, d, rfl, formStep_same h _ _, rfl, ho⟩

/-- A change of the value of an entry. -/
theorem set_step {s : PStore} {l : Loc} {d : Dict} {k : Bytes} {old v : Obj} (h : objAt s l = some (.dict d)) (ho : HasEntry s d k old)
    (hv : ∀ n g, v ≠ .ref n g) (hl : l.1 ∉ entryRef d k) :
    ∃ d', FormStep s (putAt s (entryLoc l d k) v) l d d' [k] (entryRef d k) ∧ entryRef d' k = entryRef d k ∧
      HasEntry (putAt s (entryLoc l d k) v) d' k v := by
  obtain ⟨o, hm⟩ := find_of_has ho
  by_cases hr : ∃ n g, o = .ref n g
  · obtain ⟨n, g, rfl⟩ := hr
    have he : entryRef d k = [(n, g)] := by unfold entryRef; rw [hm]
    have hne : l.1 ≠ (n, g) := by rw [he] at hl; exact fun e => hl (List.mem_singleton.mpr e)
    have hloc : entryLoc l d k = ((n, g), []) := by unfold entryLoc; rw [hm]
    have hput : putAt s (entryLoc l d k) v = s.set (n, g) v := by rw [hloc]; rfl
    rw [hput]
    refine ⟨d, ⟨?_, fun _ _ => rfl, ?_, ?_⟩, rfl, hv, .inr ⟨n, g, hm, store_at _ _ _⟩⟩
    · unfold objAt; rw [store_other _ hne]; exact h
    · intro k' ks hk cd hcd
      exact ⟨cd, by rw [store_other _ hne]; exact hcd, fun _ _ => rfl⟩
    · intro r _ hr
      rw [he] at hr
      exact store_other _ (fun e => hr (List.mem_singleton.mpr e)) _
  · have hloc : entryLoc l d k = (l.1, l.2 ++ [k]) := by
      unfold entryLoc; rw [hm]
      cases o <;> first | rfl | exact absurd ⟨_, _, rfl⟩ hr
    have hput : putAt s (entryLoc l d k) v = putAt s l (.dict (replaceEntry k v d)) := by
      rw [hloc]
      unfold putAt
      rw [with_append v h hm]
    rw [hput]
    have hf : mapFind k (replaceEntry k v d) = some v := by rw [mapFind_replace, if_pos rfl, hm]; rfl
    refine ⟨replaceEntry k v d, putAt_step h (fun q hq => ?_) _, ?_, hv, .inl hf⟩
    · rw [mapFind_replace, if_neg (fun e => hq (List.mem_singleton.mpr e))]
    · unfold entryRef
      rw [hf, hm]
      cases v <;> first | (cases o <;> first | rfl | exact absurd ⟨_, _, rfl⟩ hr) | exact absurd rfl (hv _ _)

theorem append_step {s : PStore} {l : Loc} {d : Dict} {k : Bytes} {items : List Obj} (item : Obj) (h : objAt s l = some (.dict d))
    (ho : HasEntry s d k (.arr items)) (hl : l.1 ∉ entryRef d k) :
    ∃ s' d', appendIn s l k item = .ok s' ∧ FormStep s s' l d d' [k] (entryRef d k) ∧ entryRef d' k = entryRef d k ∧
      HasEntry s' d' k (.arr (items ++ [item])) := by
  obtain ⟨d', h1, h2, h3⟩ := set_step (v := .arr (items ++ [item])) h ho (by simp) hl
  refine ⟨_, d', ?_, h1, h2, h3⟩
  unfold appendIn
  rw [dictIn_of h, ok_bind, treeEntry_of_has ho, ok_bind]
  rfl

theorem toggled (v : Int) : ∃ a w, (NumVal.int v).toggle 0 true = .ok a ∧ a.toggle 1 true = .ok (.int w) ∧ BothFlags v w := by
  have hb : ∀ (x : Int) (n : Nat), (NumVal.int x).toggle n true =
      .ok (.int (if x / (2 ^ n : Nat) % 2 = 1 then x else x + (2 ^ n : Nat))) := by
    intro x n
    unfold NumVal.toggle
    show (Except.ok (decide (x / (2 ^ n : Nat) % 2 = 1)) >>= _) = _
    rw [ok_bind]
    dsimp only
    by_cases h : x / (2 ^ n : Nat) % 2 = 1
    · rw [if_pos h, decide_eq_true h]; rfl
    · rw [if_neg h, decide_eq_false h]; rfl
  refine ⟨_, _, hb v 0, hb _ 1, ?_⟩
  unfold BothFlags
  simp only [Nat.pow_zero, Nat.pow_one, Nat.cast_one, Nat.cast_ofNat]
  split <;> split <;> omega

theorem mark_step {s : PStore} {l : Loc} {d : Dict} {v : Int} (h : objAt s l = some (.dict d))
    (ho : HasEntry s d (b! "SigFlags") (.int v)) (hl : l.1 ∉ entryRef d (b! "SigFlags")) :
    ∃ s' d' w, markSigned s l = .ok s' ∧ FormStep s s' l d d' [b! "SigFlags"] (entryRef d (b! "SigFlags")) ∧
      entryRef d' (b! "SigFlags") = entryRef d (b! "SigFlags") ∧ HasEntry s' d' (b! "SigFlags") (.int w) ∧ BothFlags v w := by
  obtain ⟨a, w, t1, t2, t3⟩ := toggled v
  obtain ⟨d', h1, h2, h3⟩ := set_step (v := .int w) h ho (by simp) hl
  refine ⟨_, d', w, ?_, h1, h2, h3, t3⟩
  unfold markSigned
  rw [dictIn_of h, ok_bind, treeEntry_of_has ho, ok_bind]
  dsimp only
  rw [t1, ok_bind, t2, ok_bind]
  rfl

/-- The catalog after changes of the form. -/
theorem form_around {s s' : PStore} {c : ObjRef} {cd form form' : Dict} {ks : List Bytes} {rs : List ObjRef} (hc : s c = .dict cd)
    (hf : HasEntry s cd (b! "AcroForm") (.dict form)) (hn : c ∉ entryRef cd (b! "AcroForm"))
    (h : FormStep s s' (entryLoc (c, []) cd (b! "AcroForm")) form form' ks rs) (hr : c ∉ rs) :
    ∃ cd', s' c = .dict cd' ∧ (∀ q, q ≠ b! "AcroForm" → mapFind q cd' = mapFind q cd) ∧
      HasEntry s' cd' (b! "AcroForm") (.dict form') ∧ entryRef cd' (b! "AcroForm") = entryRef cd (b! "AcroForm") := by
  rcases hf.2 with hm | ⟨n, g, hm, hs⟩
  · have hloc : entryLoc (c, []) cd (b! "AcroForm") = (c, [b! "AcroForm"]) := by unfold entryLoc; rw [hm]; rfl
    rw [hloc] at h
    obtain ⟨cd', h1, h2⟩ := h.around _ _ rfl cd hc
    have h3 := h.there
    unfold objAt at h3
    rw [show ((c, [b! "AcroForm"]) : Loc).1 = c from rfl] at h3
    rw [h1] at h3
    have h4 := part_append (p := []) (o := .dict cd') (b! "AcroForm") rfl
    have h5 : mapFind (b! "AcroForm") cd' = some (.dict form') := by rw [← h4]; exact h3
    refine ⟨cd', h1, h2, ⟨by simp, .inl h5⟩, ?_⟩
    unfold entryRef
    rw [h5, hm]
  · have hloc : entryLoc (c, []) cd (b! "AcroForm") = ((n, g), []) := by unfold entryLoc; rw [hm]
    have hne : c ≠ (n, g) := by
      unfold entryRef at hn
      rw [hm] at hn
      exact fun e => hn (List.mem_singleton.mpr e)
    rw [hloc] at h
    have h1 := h.frame c hne hr
    have h3 : s' (n, g) = .dict form' := Option.some.inj h.there
    exact ⟨cd, h1.trans hc, fun _ _ => rfl, ⟨by simp, .inr ⟨n, g, hm, h3⟩⟩, rfl⟩

/-- The place of the form. -/
theorem form_there {s : PStore} {c : ObjRef} {cd form : Dict} (hc : s c = .dict cd)
    (hf : HasEntry s cd (b! "AcroForm") (.dict form)) : objAt s (entryLoc (c, []) cd (b! "AcroForm")) = some (.dict form) ∧
      ((entryLoc (c, []) cd (b! "AcroForm")).1 = c ∨ (entryLoc (c, []) cd (b! "AcroForm")).1 ∈ entryRef cd (b! "AcroForm")) := by
  rcases hf.2 with hm | ⟨n, g, hm, hs⟩
  · have hloc : entryLoc (c, []) cd (b! "AcroForm") = (c, [b! "AcroForm"]) := by unfold entryLoc; rw [hm]; rfl
    rw [hloc]
    refine ⟨?_, .inl rfl⟩
    have h4 := part_append (p := []) (o := .dict cd) (b! "AcroForm") rfl
    unfold objAt
    show partAt (s c) ([] ++ [b! "AcroForm"]) = _
    rw [hc, h4, hm]
  · have hloc : entryLoc (c, []) cd (b! "AcroForm") = ((n, g), []) := by unfold entryLoc; rw [hm]
    rw [hloc]
    refine ⟨by unfold objAt; show some (s (n, g)) = _; rw [hs], .inr ?_⟩
    unfold entryRef
    rw [hm]; exact List.mem_singleton.mpr rfl

/-- The flags and the fields of the form. -/
theorem form_steps {s : PStore} {l : Loc} {form : Dict} {flags : Int} {fields : List Obj} (item : Obj)
    (h : objAt s l = some (.dict form))
    (hg : (Absent form (b! "SigFlags") ∧ flags = 0) ∨ HasEntry s form (b! "SigFlags") (.int flags))
    (hl : ListEntry s form (b! "Fields") fields)
    (hd : (l.1 :: (entryRef form (b! "SigFlags") ++ entryRef form (b! "Fields"))).Nodup) :
    ∃ s1 s2 s3 s4 form' flags', ensureEntry s l (b! "SigFlags") (.int 0) = .ok s1 ∧ markSigned s1 l = .ok s2 ∧
      ensureEntry s2 l (b! "Fields") (.arr []) = .ok s3 ∧ appendIn s3 l (b! "Fields") item = .ok s4 ∧
      FormStep s s4 l form form' [b! "SigFlags", b! "Fields"] (entryRef form (b! "SigFlags") ++ entryRef form (b! "Fields")) ∧
      HasEntry s4 form' (b! "Fields") (.arr (fields ++ [item])) ∧ HasEntry s4 form' (b! "SigFlags") (.int flags') ∧
      BothFlags flags flags' := by
  rw [List.nodup_cons] at hd
  obtain ⟨hd1, hd2⟩ := hd
  have hlF : l.1 ∉ entryRef form (b! "SigFlags") := fun hm => hd1 (List.mem_append.mpr (.inl hm))
  have hlA : l.1 ∉ entryRef form (b! "Fields") := fun hm => hd1 (List.mem_append.mpr (.inr hm))
  have hFA : ∀ r ∈ entryRef form (b! "SigFlags"), r ∉ entryRef form (b! "Fields") :=
    fun r h1 h2 => (List.nodup_append.mp hd2).2.2 r h1 r h2 rfl
  have hne : b! "Fields" ≠ b! "SigFlags" := by decide
  obtain ⟨s1, f1, e1, t1, r1, v1⟩ := ensure_step (k := b! "SigFlags") (v := .int 0) (old := .int flags) h (by simp)
    (hg.imp (fun x => ⟨x.1, by rw [x.2]⟩) id)
  obtain ⟨s2, f2, w, e2, t2, r2, v2, hb⟩ := mark_step t1.there v1 (by rw [r1]; exact hlF)
  have t12 := t1.trans t2
  have hA : mapFind (b! "Fields") f2 = mapFind (b! "Fields") form := t12.same _ (by decide)
  have rA : entryRef f2 (b! "Fields") = entryRef form (b! "Fields") := entryRef_congr hA
  have frameA : ∀ r ∈ entryRef form (b! "Fields"), s2 r = s r := fun r hr =>
    t12.frame r (fun e => hlA (e ▸ hr)) (by
      rw [List.nil_append, r1]
      exact fun hm => hFA r hm hr)
  have oA : (Absent f2 (b! "Fields") ∧ Obj.arr fields = .arr []) ∨ HasEntry s2 f2 (b! "Fields") (.arr fields) := by
    rcases hl with ⟨x, y⟩ | x
    · exact .inl ⟨absent_iff.mpr (hA.trans (absent_iff.mp x)), by rw [y]⟩
    · exact .inr (hasEntry_moved x hA frameA)
  obtain ⟨s3, f3, e3, t3, r3, v3⟩ := ensure_step (k := b! "Fields") (v := .arr []) t2.there (by simp) oA
  obtain ⟨s4, f4, e4, t4, r4, v4⟩ := append_step item t3.there v3 (by rw [r3, rA]; exact hlA)
  have t34 := t3.trans t4
  refine ⟨s1, s2, s3, s4, f4, w, e1, e2, e3, e4, ?_, v4, ?_, hb⟩
  · have t := t12.trans t34
    refine ⟨t.there, fun q hq => t.same q ?_, t.around, fun r hr hn => t.frame r hr ?_⟩
    · simp only [List.mem_append, List.mem_cons, List.not_mem_nil, or_false, not_or] at hq ⊢
      exact ⟨⟨hq.1, hq.1⟩, hq.2, hq.2⟩
    · rw [List.nil_append, List.nil_append, r1, r3, rA]; exact hn
  · have hk : mapFind (b! "SigFlags") f4 = mapFind (b! "SigFlags") f2 := t34.same _ (by decide)
    refine hasEntry_moved v2 hk fun r hr => t34.frame r ?_ ?_
    · rw [r2, r1] at hr; exact fun e => hlF (e ▸ hr)
    · rw [List.nil_append, r3, rA]
      rw [r2, r1] at hr
      exact hFA r hr

/-- A new object with a number that was free. -/
theorem allocate_new {d : NewDoc} {k : Nat} (h : Roomy d.alloc (k + 1)) (o : Obj) :
    ∃ r a, d.allocate o = .ok (r, { d with alloc := a, store := d.store.set r o }) ∧ ¬ Occurs d.alloc.chain r.1 ∧ Roomy a k ∧
      ∀ n, Occurs a.chain n ↔ Occurs d.alloc.chain n ∨ n = r.1 := by
  obtain ⟨e, a, h1, _, h3, h4, h5⟩ := allocate_roomy h
  refine ⟨(e.num, e.gen), a, ?_, h3, h4, h5⟩
  unfold NewDoc.allocate
  rw [h1]; rfl

/-- The form that is there, or a new one. -/
theorem target_spec {d : NewDoc} {k : Nat} {c : ObjRef} {cd form : Dict} (hr : Roomy d.alloc (k + 1)) (hc : d.store c = .dict cd)
    (ho : Occurs d.alloc.chain c.1)
    (hf : (Absent cd (b! "AcroForm") ∧ form = []) ∨ HasEntry d.store cd (b! "AcroForm") (.dict form))
    (hn : c ∉ entryRef cd (b! "AcroForm")) :
    ∃ s a c', signTarget d c = .ok (entryLoc (c, []) c' (b! "AcroForm"), { d with alloc := a, store := s }) ∧ s c = .dict c' ∧
      (∀ q, q ≠ b! "AcroForm" → mapFind q c' = mapFind q cd) ∧ HasEntry s c' (b! "AcroForm") (.dict form) ∧
      c ∉ entryRef c' (b! "AcroForm") ∧
      (∀ x ∈ entryRef c' (b! "AcroForm"), x ∈ entryRef cd (b! "AcroForm") ∨ ¬ Occurs d.alloc.chain x.1) ∧
      (∀ r, r ≠ c → Occurs d.alloc.chain r.1 → s r = d.store r) ∧ (∀ n, Occurs d.alloc.chain n → Occurs a.chain n) ∧
      (¬ Absent cd (b! "AcroForm") → c' = cd) := by
  rcases hf with ⟨ha, rfl⟩ | hf
  · have hm := absent_iff.mp ha
    obtain ⟨r, a, h1, h2, _, h4⟩ := allocate_new hr (.dict [])
    have hrc : c ≠ r := fun e => h2 (e ▸ ho)
    have hi : mapFind (b! "AcroForm") (mapInsert (b! "AcroForm") (.ref r.1 r.2) cd) = some (.ref r.1 r.2) := mapFind_insert_new hm
    refine ⟨(d.store.set r (.dict [])).set c (.dict (mapInsert (b! "AcroForm") (.ref r.1 r.2) cd)), a,
      mapInsert (b! "AcroForm") (.ref r.1 r.2) cd, ?_, store_at _ _ _, fun q hq => mapFind_insert_ne hq, ?_, ?_, ?_, ?_,
      fun n hn => (h4 n).mpr (.inl hn), fun hx => absurd ha hx⟩
    · unfold signTarget dictAt
      rw [hc]
      dsimp only
      rw [ok_bind, hm]
      dsimp only
      rw [h1, ok_bind]
      dsimp only
      rw [store_other _ hrc, hc]
      dsimp only
      rw [ok_bind]
      unfold insertOnce
      rw [hm]
      unfold entryLoc
      rw [hi]
      rfl
    · refine ⟨by simp, .inr ⟨r.1, r.2, hi, ?_⟩⟩
      show (PStore.set _ c _) r = _
      rw [store_other _ (Ne.symm hrc), store_at]
    · unfold entryRef; rw [hi]; exact fun h => hrc (List.mem_singleton.mp h)
    · unfold entryRef; rw [hi]
      intro x hx
      rw [List.mem_singleton.mp hx]
      exact .inr h2
    · intro q hq hq'
      rw [store_other _ hq, store_other _ (fun e => h2 (by rw [← e]; exact hq'))]
  · obtain ⟨o, hm⟩ := find_of_has hf
    refine ⟨d.store, d.alloc, cd, ?_, hc, fun _ _ => rfl, hf, hn, fun x hx => .inl hx, fun _ _ _ => rfl, fun _ h => h, fun _ => rfl⟩
    unfold signTarget dictAt
    rw [hc]
    dsimp only
    rw [ok_bind, hm]
    dsimp only
    rw [treeEntry_of_has hf, ok_bind]
    rfl

theorem step_ok {α : Type} {d d' : NewDoc} {r : Res (α × NewDoc)} {a : α} {next : α → NewDoc → NewDoc × Option Fault}
    (h : r = .ok (a, d')) : d.step r next = next a d' := by rw [h]; rfl

theorem alter_ok {d : NewDoc} {r : Res PStore} {s : PStore} {next : NewDoc → NewDoc × Option Fault} (h : r = .ok s) :
    d.alter r next = next { d with store := s } := by rw [h]; rfl

theorem listEntry_keep {s s' : PStore} {d d' : Dict} {k : Bytes} {l : List Obj} (h : ListEntry s d k l)
    (hk : mapFind k d' = mapFind k d) (hs : ∀ r ∈ entryRef d k, s' r = s r) : ListEntry s' d' k l := by
  rcases h with ⟨h, e⟩ | h
  · exact .inl ⟨absent_iff.mpr (hk.trans (absent_iff.mp h)), e⟩
  · exact .inr (hasEntry_moved h hk hs)

theorem entryRef_has {s : PStore} {d : Dict} {k : Bytes} {v : Obj} (h : HasEntry s d k v) : ∀ r ∈ entryRef d k, s r = v := by
  intro r hr
  rcases h.2 with h1 | ⟨n, g, h1, h2⟩
  · unfold entryRef at hr
    rw [h1] at hr
    cases v <;> first | exact absurd rfl (h.1 _ _) | exact nomatch hr
  · unfold entryRef at hr
    rw [h1] at hr
    rw [List.mem_singleton.mp hr, h2]

theorem entryRef_absent {d : Dict} {k : Bytes} (h : Absent d k) : entryRef d k = [] := by
  unfold entryRef; rw [absent_iff.mp h]

theorem entryRef_list {s : PStore} {d : Dict} {k : Bytes} {l : List Obj} (h : ListEntry s d k l) : ∀ r ∈ entryRef d k, s r = .arr l := by
  rcases h with ⟨h, _⟩ | h
  · rw [entryRef_absent h]; nofun
  · exact entryRef_has h

/-- Everything that signing does. -/
theorem signForm_spec {d : NewDoc} {c root p : ObjRef} {kids : List Spec.PageTree} {cd pd form : Dict} {annots fields : List Obj}
    {flags : Int} (h : Signable d c root p kids cd pd form annots fields flags) (hr : Roomy d.alloc 3) :
    ∃ depth, ∀ f, depth ≤ f → ∀ o, ∃ d' sig w, signForm f true o d = (d', none) ∧
      SignedBy d d' c p sig w cd pd form (signatureObject o) annots fields flags := by
  have tree := h.tree
  have hkeep0 : ∀ r a, ¬ Occurs d.alloc.chain r.1 → ∀ q, d.store q ≠ .null → (d.store.set r a) q = d.store q :=
    fun r a hr q hq => store_other _ (fun e => hr (by rw [← e]; exact h.listed q hq)) _
  refine ⟨(Spec.PageTree.node root kids).depth, fun f hf o => ?_⟩
  -- the signature dictionary
  obtain ⟨sig, a1, e1, n1, r1, o1⟩ := allocate_new hr (.dict (signatureObject o))
  generalize hs1 : d.store.set sig (.dict (signatureObject o)) = s1 at e1
  have k1 : ∀ q, d.store q ≠ .null → s1 q = d.store q := fun q hq => by rw [← hs1]; exact hkeep0 _ _ n1 q hq
  have k1e : ∀ {x : Dict} {k : Bytes} {v : Obj}, v ≠ .null → HasEntry d.store x k v → HasEntry s1 x k v := fun hv he =>
    hasEntry_moved he rfl fun r hr => k1 r (by rw [entryRef_has he r hr]; exact hv)
  have c1 : s1 c = .dict cd := by rw [k1 c (by rw [h.catalogAt]; simp), h.catalogAt]
  have p1 : s1 p = .dict pd := by rw [k1 p (by rw [h.pageDict]; simp), h.pageDict]
  -- the catalog
  have e2 : signCatalog { d with alloc := a1, store := s1 } = .ok (c, { d with alloc := a1, store := s1 }) := by
    unfold signCatalog
    dsimp only
    rw [h.rootEntry]
    dsimp only
    unfold dictAt
    rw [c1]
    dsimp only
    rw [ok_bind]
    rcases h.catalogType with ht | ht
    · rw [absent_iff.mp ht]; rfl
    · obtain ⟨x, hx⟩ := find_of_has ht
      rw [hx]
      dsimp only
      rw [treeEntry_of_has (k1e (by simp) ht), ok_bind]
      dsimp only
      rw [if_pos rfl]; rfl
  -- the page
  have tree1 : StoredTree s1 (.node root kids) := stored_keep k1 _ tree
  obtain ⟨rest, hrest⟩ := h.first
  have e3 : signPage f s1 c = .ok p := by
    have hc := C47_page_number s1 root kids tree1
    have hl : (Spec.PageTree.node root kids).pages = p :: rest := hrest
    unfold signPage dictAt
    rw [c1]
    dsimp only
    rw [ok_bind, h.pagesEntry]
    dsimp only
    rw [hc.1, ok_bind, if_neg (by rw [hl]; simp)]
    rw [StoredTree] at tree1
    obtain ⟨⟨x, x1, x2, x3, x4, x5⟩, x6⟩ := tree1
    unfold pageAt
    rw [if_neg (by omega), pageTreeNode_eq x1 x2, ok_bind]
    have hp := pageInternal_stored s1 1 (by omega) (.node root kids) (by rw [StoredTree]; exact ⟨⟨x, x1, x2, x3, x4, x5⟩, x6⟩) rfl f 1 hf
      (by omega) (by show 1 + (pagesOf kids).length < _; omega)
    have hr : (Spec.PageTree.node root kids).ref = root := rfl
    rw [hr, hl] at hp
    rw [hp]; rfl
  -- what is apart
  have hap := h.apart
  unfold signedObjects at hap
  rw [List.nodup_cons, List.nodup_cons] at hap
  obtain ⟨hp, hc, hap⟩ := hap
  simp only [List.mem_cons, List.mem_append, not_or] at hp hc
  obtain ⟨hpc, ⟨⟨hpA, hpM⟩, hpG⟩, hpF⟩ := hp
  obtain ⟨⟨⟨hcA, hcM⟩, hcG⟩, hcF⟩ := hc
  rw [List.nodup_append, List.nodup_append, List.nodup_append] at hap
  obtain ⟨⟨⟨_, hM, hAM⟩, hG, hAMG⟩, hF, hAll⟩ := hap
  have oc : Occurs d.alloc.chain c.1 := h.listed c (by rw [h.catalogAt]; simp)
  have op : Occurs d.alloc.chain p.1 := h.listed p (by rw [h.pageDict]; simp)
  have oA : ∀ r ∈ entryRef pd (b! "Annots"), Occurs d.alloc.chain r.1 := fun r hr =>
    h.listed r (by rw [entryRef_list h.annotsList r hr]; simp)
  have oM : ∀ r ∈ entryRef cd (b! "AcroForm"), Occurs d.alloc.chain r.1 := fun r hr => by
    rcases h.formEntry with ⟨x, _⟩ | x
    · rw [entryRef_absent x] at hr; exact nomatch hr
    · exact h.listed r (by rw [entryRef_has x r hr]; simp)
  have oG : ∀ r ∈ entryRef form (b! "SigFlags"), Occurs d.alloc.chain r.1 := fun r hr => by
    rcases h.flagsEntry with ⟨x, _⟩ | x
    · rw [entryRef_absent x] at hr; exact nomatch hr
    · exact h.listed r (by rw [entryRef_has x r hr]; simp)
  have oF : ∀ r ∈ entryRef form (b! "Fields"), Occurs d.alloc.chain r.1 := fun r hr =>
    h.listed r (by rw [entryRef_list h.fieldsList r hr]; simp)
  -- the annotations
  have an1 : ListEntry s1 pd (b! "Annots") annots := listEntry_keep h.annotsList rfl fun r hr =>
    k1 r (by rw [entryRef_list h.annotsList r hr]; simp)
  have at1 : objAt s1 (p, []) = some (.dict pd) := by unfold objAt; show some (s1 p) = _; rw [p1]
  obtain ⟨s2, pd2, e4, t4, r4, v4⟩ := ensure_step (k := b! "Annots") (v := .arr []) (old := .arr annots) at1 (by simp)
    (an1.imp (fun x => ⟨x.1, by rw [x.2]⟩) id)
  have p2 : s2 p = .dict pd2 := Option.some.inj t4.there
  have f2 : ∀ r, r ≠ p → s2 r = s1 r := fun r hr => t4.frame r hr (by simp)
  obtain ⟨w, a2, e5, n2, r2, o2⟩ := allocate_new (d := { d with alloc := a1, store := s2 }) (k := 1) r1 (.dict (newWidget p))
  dsimp only at e5 n2 o2
  have wocc : ∀ {r : ObjRef}, Occurs d.alloc.chain r.1 → r ≠ w := fun ho e => n2 (e ▸ (o1 _).mpr (.inl ho))
  have wsig : sig ≠ w := fun e => n2 (e ▸ (o1 _).mpr (.inr rfl))
  have socc : ∀ {r : ObjRef}, Occurs d.alloc.chain r.1 → r ≠ sig := fun ho e => n1 (e ▸ ho)
  have e5' : (do
      let x ← dictAt s2 p
      let _ ← treeArray s2 x (b! "Annots")
      NewDoc.allocate { d with alloc := a1, store := s2 } (.dict (newWidget p))) =
      .ok (w, { d with alloc := a2, store := s2.set w (.dict (newWidget p)) }) := by
    unfold dictAt
    rw [p2]
    dsimp only
    rw [ok_bind, treeArray_of_has v4, ok_bind, e5]
  generalize hs3 : s2.set w (.dict (newWidget p)) = s3 at e5 e5'
  have f3 : ∀ r, r ≠ w → s3 r = s2 r := fun r hr => by rw [← hs3]; exact store_other _ hr _
  have at3 : objAt s3 (p, []) = some (.dict pd2) := by unfold objAt; show some (s3 p) = _; rw [f3 p (wocc op), p2]
  obtain ⟨s4, pd4, e6, t6, r6, v6⟩ := append_step (k := b! "Annots") (.ref w.1 w.2) at3
    (hasEntry_moved v4 rfl fun r hr => f3 r (wocc (oA r (r4 ▸ hr)))) (by rw [r4]; exact hpA)
  have p4 : s4 p = .dict pd4 := Option.some.inj t6.there
  have f4 : ∀ r, r ≠ p → r ∉ entryRef pd (b! "Annots") → s4 r = s3 r := fun r hr hn => t6.frame r hr (by rw [r4]; exact hn)
  generalize hs5 : s4.set w (.dict (signatureField p sig)) = s5
  have f5 : ∀ r, r ≠ w → s5 r = s4 r := fun r hr => by rw [← hs5]; exact store_other _ hr _
  -- all changes so far
  have f15 : ∀ r, r ≠ p → r ∉ entryRef pd (b! "Annots") → r ≠ w → s5 r = s1 r := fun r x y z => by
    rw [f5 r z, f4 r x y, f3 r z, f2 r x]
  have f05 : ∀ r, d.store r ≠ .null → r ≠ p → r ∉ entryRef pd (b! "Annots") → s5 r = d.store r := fun r hn x y => by
    rw [f15 r x y (wocc (h.listed r hn)), k1 r hn]
  -- the form
  have c5 : s5 c = .dict cd := by rw [f05 c (by rw [h.catalogAt]; simp) (fun e => hpc e.symm) hcA, h.catalogAt]
  have hf5 : (Absent cd (b! "AcroForm") ∧ form = []) ∨ HasEntry s5 cd (b! "AcroForm") (.dict form) := by
    rcases h.formEntry with x | x
    · exact .inl x
    · refine .inr (hasEntry_moved x rfl fun r hr => f05 r (by rw [entryRef_has x r hr]; simp) (fun e => hpM (e ▸ hr))
        fun hA => hAM r hA r hr rfl)
  obtain ⟨s6, a6, c6, e7, cc6, same6, has6, nc6, ref6, f6, occ6, own6⟩ := target_spec (d := { d with alloc := a2, store := s5 }) (k := 0) r2 c5
    ((o2 _).mpr (.inl ((o1 _).mpr (.inl oc)))) hf5 hcM
  dsimp only at f6 ref6 occ6
  have up : ∀ {n : Nat}, Occurs d.alloc.chain n → Occurs a2.chain n := fun x => (o2 _).mpr (.inl ((o1 _).mpr (.inl x)))
  obtain ⟨at6, near6⟩ := form_there cc6 has6
  have locOut : ∀ {r : ObjRef}, r ≠ c → Occurs d.alloc.chain r.1 → r ∉ entryRef cd (b! "AcroForm") →
      r ≠ (entryLoc (c, []) c6 (b! "AcroForm")).1 := by
    intro r x y z e
    rcases near6 with h1 | h1
    · exact x (e.trans h1)
    · rcases ref6 _ h1 with h2 | h2
      · exact z (e ▸ h2)
      · exact h2 (e ▸ up y)
  have f06 : ∀ r, d.store r ≠ .null → r ≠ p → r ≠ c → r ∉ entryRef pd (b! "Annots") → s6 r = d.store r := fun r hn x y z => by
    rw [f6 r y (up (h.listed r hn)), f05 r hn x z]
  have hg6 : (Absent form (b! "SigFlags") ∧ flags = 0) ∨ HasEntry s6 form (b! "SigFlags") (.int flags) := by
    rcases h.flagsEntry with x | x
    · exact .inl x
    · exact .inr (hasEntry_moved x rfl fun r hr => f06 r (by rw [entryRef_has x r hr]; simp) (fun e => hpG (e ▸ hr))
        (fun e => hcG (e ▸ hr)) fun hA => hAMG r (List.mem_append.mpr (.inl hA)) r hr rfl)
  have hl6 : ListEntry s6 form (b! "Fields") fields := listEntry_keep h.fieldsList rfl fun r hr =>
    f06 r (by rw [entryRef_list h.fieldsList r hr]; simp) (fun e => hpF (e ▸ hr)) (fun e => hcF (e ▸ hr))
      fun hA => hAll r (List.mem_append.mpr (.inl (List.mem_append.mpr (.inl hA)))) r hr rfl
  have hd6 : ((entryLoc (c, []) c6 (b! "AcroForm")).1 :: (entryRef form (b! "SigFlags") ++ entryRef form (b! "Fields"))).Nodup := by
    rw [List.nodup_cons]
    refine ⟨fun hm => ?_, ?_⟩
    · rcases List.mem_append.mp hm with hm | hm
      · exact locOut (fun e => hcG (e ▸ hm)) (oG _ hm) (fun x => hAMG _ (List.mem_append.mpr (.inr x)) _ hm rfl) rfl
      · exact locOut (fun e => hcF (e ▸ hm)) (oF _ hm)
          (fun x => hAll _ (List.mem_append.mpr (.inl (List.mem_append.mpr (.inr x)))) _ hm rfl) rfl
    · rw [List.nodup_append]
      exact ⟨hG, hF, fun a ha b hb => hAll a (List.mem_append.mpr (.inr ha)) b hb⟩
  obtain ⟨s7, s8, s9, s10, form', flags', e8, e9, e10, e11, t10, v10, g10, hb⟩ := form_steps (.ref w.1 w.2) at6 hg6 hl6 hd6
  obtain ⟨cd', cc10, same10, has10, own10⟩ := form_around cc6 has6 nc6 t10 (by
    intro hm
    rcases List.mem_append.mp hm with hm | hm
    · exact hcG hm
    · exact hcF hm)
  have f10 : ∀ r, r ≠ c → Occurs a2.chain r.1 → r ∉ entryRef cd (b! "AcroForm") → r ∉ entryRef form (b! "SigFlags") →
      r ∉ entryRef form (b! "Fields") → s10 r = s5 r := by
    intro r x y z u v
    rw [t10.frame r ?_ ?_, f6 r x y]
    · intro e
      rcases near6 with h1 | h1
      · exact x (e.trans h1)
      · rcases ref6 _ h1 with h2 | h2
        · exact z (e ▸ h2)
        · exact h2 (e ▸ y)
    · intro hm
      rcases List.mem_append.mp hm with hm | hm
      · exact u hm
      · exact v hm
  have ow : Occurs a2.chain w.1 := (o2 _).mpr (.inr rfl)
  have os : Occurs a2.chain sig.1 := (o2 _).mpr (.inl ((o1 _).mpr (.inr rfl)))
  have fw : s10 w = s5 w := f10 w (fun e => wocc oc e.symm) ow (fun hm => wocc (oM _ hm) rfl) (fun hm => wocc (oG _ hm) rfl)
    (fun hm => wocc (oF _ hm) rfl)
  have fs : s10 sig = s5 sig := f10 sig (fun e => socc oc e.symm) os (fun hm => socc (oM _ hm) rfl) (fun hm => socc (oG _ hm) rfl)
    (fun hm => socc (oF _ hm) rfl)
  have fp : s10 p = s5 p := f10 p hpc (up op) hpM hpG hpF
  refine ⟨{ d with alloc := a6, store := s10 }, sig, w, ?_, ?_⟩
  · unfold signForm
    rw [if_neg (by simp)]
    refine (step_ok e1).trans ?_
    refine (step_ok e2).trans ?_
    refine (step_ok (a := p) (d' := { d with alloc := a1, store := s1 }) (by dsimp only; rw [e3]; rfl)).trans ?_
    refine (alter_ok e4).trans ?_
    refine (step_ok e5').trans ?_
    refine (alter_ok e6).trans ?_
    refine (alter_ok (s := s5) (by dsimp only; rw [hs5]; rfl)).trans ?_
    refine (step_ok e7).trans ?_
    refine (alter_ok e8).trans ?_
    refine (alter_ok e9).trans ?_
    refine (alter_ok e10).trans ?_
    refine (alter_ok e11).trans ?_
    rfl
  · refine ⟨n1, fun ho => n2 ((o1 _).mpr (.inl ho)), wsig, ?_, ?_, ?_, ?_, ?_, rfl, fun n hn => occ6 n (up hn)⟩
    · show s10 sig = _
      rw [fs, f15 sig (fun e => socc op e.symm) (fun hm => socc (oA _ hm) rfl) wsig, ← hs1, store_at]
    · refine ⟨signatureField p sig, ?_, rfl, rfl, rfl, rfl, rfl, rfl, rfl⟩
      show s10 w = _
      rw [fw, ← hs5, store_at]
    · refine ⟨pd4, ?_, ?_, r6.trans r4, ?_⟩
      · show s10 p = _
        rw [fp, f5 p (wocc op), p4]
      · refine hasEntry_moved v6 rfl fun r hr => ?_
        rw [r6, r4] at hr
        show s10 r = s4 r
        rw [f10 r (fun e => hcA (e ▸ hr)) (up (oA r hr)) (fun hm => hAM r hr r hm rfl)
          (fun hm => hAMG r (List.mem_append.mpr (.inl hr)) r hm rfl)
          (fun hm => hAll r (List.mem_append.mpr (.inl (List.mem_append.mpr (.inl hr)))) r hm rfl), f5 r (wocc (oA r hr))]
      · intro k hk
        rw [t6.same k (by simpa using hk), t4.same k (by simpa using hk)]
    · refine ⟨cd', form', flags', cc10, fun k hk => (same10 k hk).trans (same6 k hk), has10,
        fun hx => by rw [own10, own6 hx], v10, g10, hb, fun k x y => t10.same k ?_⟩
      simp only [List.mem_cons, List.not_mem_nil, or_false, not_or]
      exact ⟨y, x⟩
    · intro r hn hm
      unfold signedObjects at hm
      simp only [List.mem_cons, List.mem_append, not_or] at hm
      obtain ⟨m1, m2, ⟨⟨m3, m4⟩, m5⟩, m6⟩ := hm
      show s10 r = _
      rw [f10 r m2 (up (h.listed r hn)) m4 m5 m6, f05 r hn m1 m3]

end VPdf
