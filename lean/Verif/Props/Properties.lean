import Verif.Proofs.Serialize
/-!
# C10-C14: `Properties`
-/

namespace Utg
open Py Spec

/-- Objects the API can build are well formed, so the hypotheses `WFProps` below are met by every object a caller can hold. -/
theorem WFProps_of_built {p : Properties} (h : Built p) : WFProps p := built_wf h

/-- **C10** The last argument that says something about a group decides; arguments after it are silent about the group. -/
theorem C10_last_specification_wins (pre post : List Arg) (a : Arg) (g : Group) (r : Rec)
    (hwf : WFArgs (pre ++ a :: post)) (ha : argSays a g = some r) (hpost : ∀ b ∈ post, argSays b g = none) :
    (Properties.new (pre ++ a :: post)).get g = some r ∧ (Properties.new (pre ++ a :: post)).isSpecified g = true := by
  have : (Properties.new (pre ++ a :: post)).data.get? g = some r := by
    rw [new_get? hwf, List.reverse_append, List.reverse_cons, List.findSome?_append, List.findSome?_append]
    have h1 : (post.reverse.findSome? fun b => argGet b g) = none := by
      rw [List.findSome?_eq_none_iff]; intro b hb
      have := hpost b (List.mem_reverse.mp hb); rwa [argSays_eq] at this
    have h2 : argGet a g = some r := by rw [← argSays_eq]; exact ha
    simp [h1, h2]
  exact ⟨by simp [Properties.get, this], isSpecified_iff.mpr ⟨r, this⟩⟩

/-- **C10** A group nobody mentions is unspecified and reads as its documented default. -/
theorem C10_default (argv : List Arg) (g : Group) (hwf : WFArgs argv) (h : ∀ a ∈ argv, argSays a g = none) :
    (Properties.new argv).get g = documentedDefault g ∧ (Properties.new argv).isSpecified g = false := by
  have : (Properties.new argv).data.get? g = none := by
    rw [new_get? hwf, List.findSome?_eq_none_iff]; intro b hb
    have := h b (List.mem_reverse.mp hb); rwa [argSays_eq] at this
  exact ⟨by simp [Properties.get, this, defaultProperty_eq], isSpecified_false.mpr this⟩

/-- **C10** `None` arguments are ignored. -/
theorem C10_none_ignored (pre post : List Arg) : Properties.new (pre ++ .none :: post) = Properties.new (pre ++ post) := by
  simp [Properties.new, Properties.updateOne]

/-- The hypotheses of C10 on a concrete case: `Properties(CASE.DATIVE, None, Properties(CASE.GENITIVE), NUMBER.PLURAL)`. -/
example : WFArgs ([.record .CASE_DATIVE, .none] ++ .props (.new [.record .CASE_GENITIVE]) :: [.record .NUMBER_PLURAL]) ∧
    argSays (.props (.new [.record .CASE_GENITIVE])) .CASE = some .CASE_GENITIVE ∧
    (∀ b ∈ [Arg.record .NUMBER_PLURAL], argSays b .CASE = none) := by
  refine ⟨?_, by decide, by decide⟩
  intro p hp
  simp at hp; subst hp; exact wf_new (wfargs_records [.CASE_GENITIVE])

/-- **C11** `p.clone(q)` reads like `q` where `q` specifies the group and like `p` elsewhere. -/
theorem C11_clone_reads (p q : Properties) (hp : WFProps p) (hq : WFProps q) (g : Group) :
    (p.clone [.props q]).get g = (if q.isSpecified g then q.get g else p.get g) ∧
    (p.clone [.props q]).isSpecified g = (q.isSpecified g || p.isSpecified g) := by
  have h := new2_get? hp hq g
  constructor
  · show Properties.get (Properties.new _) g = _
    simp only [Properties.get, Properties.isSpecified, Dict.contains, h]
    rcases Option.eq_none_or_eq_some (q.data.get? g) with h2 | ⟨v, h2⟩ <;> simp [h2]
  · show Properties.isSpecified (Properties.new _) g = _
    simp only [Properties.isSpecified, Dict.contains, h]
    rcases Option.eq_none_or_eq_some (q.data.get? g) with h2 | ⟨v, h2⟩ <;> simp [h2]

/-- **C11** Merging is associative. -/
theorem C11_clone_assoc (p q r : Properties) (hp : WFProps p) (hq : WFProps q) (hr : WFProps r) :
    ((p.clone [.props q]).clone [.props r]).eq (p.clone [.props (q.clone [.props r])]) = true := by
  refine (eq_iff_get? (wf_new2 (wf_new2 hp hq) hr) (wf_new2 hp (wf_new2 hq hr))).mpr fun g => ?_
  rw [new2_get? (wf_new2 hp hq) hr, new2_get? hp hq, new2_get? hp (wf_new2 hq hr), new2_get? hq hr, Option.or_assoc]

/-- **C11** Merging is idempotent. -/
theorem C11_clone_idem (p : Properties) (hp : WFProps p) : (p.clone [.props p]).eq p = true := by
  refine (eq_iff_get? (wf_new2 hp hp) hp).mpr fun g => ?_
  rw [new2_get? hp hp]; simp

/-- **C11** The empty object is neutral on both sides. -/
theorem C11_clone_empty (p : Properties) (hp : WFProps p) :
    (p.clone [.props (.new [])]).eq p = true ∧ ((Properties.new []).clone [.props p]).eq p = true := by
  refine ⟨(eq_iff_get? (wf_new2 hp wf_empty) hp).mpr ?_, (eq_iff_get? (wf_new2 wf_empty hp) hp).mpr ?_⟩ <;> intro g
  · rw [new2_get? hp wf_empty]; simp [Properties.new]
  · rw [new2_get? wf_empty hp]; simp [Properties.new]

/-- **C11** Cloning with several arguments is cloning one by one. -/
theorem C11_clone_many (p : Properties) (hp : WFProps p) (a : Arg) (as : List Arg) (ha : WFArgs (a :: as)) :
    (p.clone (a :: as)).eq ((p.clone [a]).clone as) = true := by
  have h1 : WFArgs (.props p :: a :: as) := wfargs_cons (by rintro _ ⟨⟩; exact hp) ha
  have h2 : WFArgs [.props p, a] := by
    intro q hq; apply h1 q; simp at hq ⊢; rcases hq with h | h <;> simp [h]
  have h3 : WFArgs (.props (p.clone [a]) :: as) := by
    refine wfargs_cons (by rintro _ ⟨⟩; exact wf_new h2) ?_
    intro q hq; exact ha q (List.mem_cons_of_mem _ hq)
  refine (eq_iff_get? (wf_new h1) (wf_new h3)).mpr fun g => ?_
  rw [new_get? h1, new_get? h3]
  simp only [List.reverse_cons, List.append_assoc, List.findSome?_append, List.findSome?_cons, List.findSome?_nil]
  have : argGet (.props (p.clone [a])) g = (argGet a g).or (argGet (.props p) g) := by
    show (Properties.new _).data.get? g = _
    rw [new_get? h2]
    simp only [List.reverse_cons, List.reverse_nil, List.nil_append, List.cons_append, List.findSome?_cons, List.findSome?_nil]
    cases argGet a g <;> cases argGet (.props p) g <;> simp
  rw [this]
  cases argGet a g <;> cases argGet (.props p) g <;> simp

/-- **C12** Two objects are equal iff they specify the same groups with the same values. -/
theorem C12_eq_iff (p q : Properties) (hp : WFProps p) (hq : WFProps q) :
    p.eq q = true ↔ ∀ g, p.isSpecified g = q.isSpecified g ∧ (p.isSpecified g = true → p.get g = q.get g) := by
  rw [eq_iff_get? hp hq]
  constructor
  · intro h g
    exact ⟨by simp [Properties.isSpecified, Dict.contains, h g], fun _ => get_congr (h g)⟩
  · intro h g
    obtain ⟨h1, h2⟩ := h g
    rw [get?_eq_ite p, get?_eq_ite q, ← h1]
    by_cases hs : p.isSpecified g = true
    · simp [hs, h2 hs]
    · simp [hs]

/-- **C12** Equality is an equivalence relation. -/
theorem C12_eq_equivalence :
    (∀ p, WFProps p → p.eq p = true) ∧
    (∀ p q, WFProps p → WFProps q → p.eq q = true → q.eq p = true) ∧
    (∀ p q r, WFProps p → WFProps q → WFProps r → p.eq q = true → q.eq r = true → p.eq r = true) := by
  refine ⟨fun p hp => ?_, fun p q hp hq => ?_, fun p q r hp hq hr => ?_⟩
  · rw [eq_iff_get? hp hp]; simp
  · rw [eq_iff_get? hp hq, eq_iff_get? hq hp]; intro h g; exact (h g).symm
  · rw [eq_iff_get? hp hq, eq_iff_get? hq hr, eq_iff_get? hp hr]; intro h1 h2 g; exact (h1 g).trans (h2 g)

/-- **C12** The hash counts the specified groups whose value is not the documented default. -/
theorem C12_hash_counts (p : Properties) (hp : WFProps p) :
    p.hash = (Group.all.filter fun g => p.isSpecified g && decide (p.get g ≠ documentedDefault g)).length :=
  manhattan_eq_count hp

/-- **C12** Equal objects have equal hashes. -/
theorem C12_hash_of_eq (p q : Properties) (hp : WFProps p) (hq : WFProps q) (h : p.eq q = true) : p.hash = q.hash := by
  rw [C12_hash_counts p hp, C12_hash_counts q hq]
  congr 1
  apply List.filter_congr
  intro g _
  obtain ⟨h1, h2⟩ := (C12_eq_iff p q hp hq).mp h g
  rw [← h1]
  by_cases hs : p.isSpecified g = true
  · rw [h2 hs]
  · simp [hs]

/-- C12 is not vacuous: two objects built in different orders are equal but not identical, and a third differs. -/
example : Built (.new [.record .CASE_DATIVE, .record .NUMBER_PLURAL]) ∧
    (Properties.new [.record .CASE_DATIVE, .record .NUMBER_PLURAL]).eq
      (.new [.record .NUMBER_PLURAL, .record .CASE_GENITIVE, .record .CASE_DATIVE]) = true ∧
    Properties.new [.record .CASE_DATIVE, .record .NUMBER_PLURAL] ≠
      .new [.record .NUMBER_PLURAL, .record .CASE_GENITIVE, .record .CASE_DATIVE] ∧
    (Properties.new [.record .CASE_DATIVE]).eq (.new [.record .CASE_GENITIVE]) = false := by
  refine ⟨.new _ (by simp), by decide, by decide, by decide⟩

/-- **C14** Deserialization of any dictionary with integer-like keys succeeds, and the result specifies group `r.group` as
`r` exactly when some item denotes `r` and no later item denotes a record of the same group. -/
theorem C14_deserialize_known (d : Dict JKey Int) (h : ∀ kv ∈ d, ∃ n, kv.1.toInt = .ok n) :
    ∃ p, Properties.deserialize d = .ok p ∧ WFProps p ∧
      ∀ g r, (p.isSpecified g = true ∧ p.get g = some r) ↔
        (r.group = g ∧ ∃ pre kv post, d = pre ++ kv :: post ∧ Denotes kv r ∧
          ∀ kv' ∈ post, ∀ r', Denotes kv' r' → r'.group ≠ g) := by
  obtain ⟨os, h1, h2⟩ := deserialize_records d h
  refine ⟨_, h1, wf_new (wfargs_records _), fun g r => ?_⟩
  have key : (Properties.isSpecified (.new ((os.filterMap id).map .record)) g = true ∧
      Properties.get (.new ((os.filterMap id).map .record)) g = some r) ↔
      (Properties.new ((os.filterMap id).map .record)).data.get? g = some r := by
    generalize Properties.new ((os.filterMap id).map .record) = q
    simp only [Properties.isSpecified, Dict.contains, Properties.get]
    rcases Option.eq_none_or_eq_some (q.data.get? g) with h3 | ⟨v, h3⟩ <;> simp [h3]
  rw [key, records_get?, List.find?_eq_some_iff_append]
  clear key h1
  constructor
  · rintro ⟨hg, as, bs, hab, has⟩
    simp only [decide_eq_true_eq] at hg
    refine ⟨hg, ?_⟩
    have hsplit : os.filterMap id = bs.reverse ++ r :: as.reverse := by
      have := congrArg List.reverse hab; simpa using this
    rw [List.filterMap_eq_append_iff] at hsplit
    obtain ⟨o1, o2, ho, ho1, ho2⟩ := hsplit
    rw [List.filterMap_eq_cons_iff] at ho2
    obtain ⟨o3, x, o4, ho3, ho4, hx, ho5⟩ := ho2
    subst ho3; subst ho
    simp only [id] at hx; subst hx
    obtain ⟨d1, d2, hd1, hd2, rfl⟩ := forall₂_append_right h2
    obtain ⟨d3, d4, hd3, hd4, rfl⟩ := forall₂_append_right hd2
    obtain ⟨kv, post, hkv, hpost, rfl⟩ := List.forall₂_cons_right_iff.mp hd4
    refine ⟨d1 ++ d3, kv, post, by simp, (hkv r).mp rfl, ?_⟩
    intro kv' hkv' r' hr'
    obtain ⟨o, ho, hrel⟩ : ∃ o ∈ o4, ∀ r, o = some r ↔ Denotes kv' r := by
      clear h h2 hd2 hd4 ho5 has hab
      induction hpost with
      | nil => simp at hkv'
      | cons hh ht ih =>
        rcases List.mem_cons.mp hkv' with h | h
        · subst h; exact ⟨_, by simp, hh⟩
        · obtain ⟨o, ho, hr⟩ := ih h; exact ⟨o, List.mem_cons_of_mem _ ho, hr⟩
    have hor : o = some r' := (hrel r').mpr hr'
    subst hor
    have hm : r' ∈ as := by
      have : r' ∈ o4.filterMap id := List.mem_filterMap.mpr ⟨some r', ho, rfl⟩
      rw [ho5] at this; simpa using this
    have := has r' hm; simpa using this
  · rintro ⟨hg, pre, kv, post, rfl, hkv, hpost⟩
    obtain ⟨o1, o2, hd1, hd2, rfl⟩ := forall₂_append_left h2
    obtain ⟨o, o3, ho, ho3, rfl⟩ := List.forall₂_cons_left_iff.mp hd2
    have := (ho r).mpr hkv; subst this
    refine ⟨by simpa using hg, (o3.filterMap id).reverse, (o1.filterMap id).reverse, by simp, ?_⟩
    intro r' hr'
    simp only [List.mem_reverse, List.mem_filterMap, id] at hr'
    obtain ⟨o', ho', rfl⟩ := hr'
    have : ∃ kv' ∈ post, Denotes kv' r' := by
      clear h h2 hd2 hpost
      induction ho3 with
      | nil => simp at ho'
      | cons hh ht ih =>
        rcases List.mem_cons.mp ho' with h | h
        · exact ⟨_, by simp, (hh r').mp h.symm⟩
        · obtain ⟨kv', hm, hr⟩ := ih h; exact ⟨kv', List.mem_cons_of_mem _ hm, hr⟩
    obtain ⟨kv', hm, hd⟩ := this
    have := hpost kv' hm r' hd; simpa using this

/-- **C14** `deserialize` fails only with the `ValueError` of `int(...)` on a key that is not a number. -/
theorem C14_deserialize_error (d : Dict JKey Int) (e : PyErr) (h : Properties.deserialize d = .error e) :
    e = .ValueError ∧ ∃ kv ∈ d, kv.1.toInt = .error .ValueError := by
  have pyInt_err : ∀ s e, pyInt s = .error e → e = .ValueError := by
    intro s e hs; unfold pyInt at hs
    split at hs <;> simp_all
  have toInt_err : ∀ k e, JKey.toInt k = .error e → e = .ValueError := by
    intro k e hk; cases k with
    | int n => simp [JKey.toInt] at hk
    | str s => exact pyInt_err s e hk
  by_cases hall : ∀ kv ∈ d, ∃ n, kv.1.toInt = .ok n
  · obtain ⟨p, hp, _⟩ := C14_deserialize_known d hall; rw [hp] at h; simp at h
  · simp only [not_forall, not_exists] at hall
    obtain ⟨kv, hkv, hno⟩ := hall
    have herr : ∃ e', kv.1.toInt = .error e' := by
      cases hk : kv.1.toInt with
      | error e' => exact ⟨e', rfl⟩
      | ok n => exact absurd hk (hno n)
    obtain ⟨e', he'⟩ := herr
    refine ⟨?_, kv, hkv, by rw [he', toInt_err _ _ he']⟩
    unfold Properties.deserialize at h
    have hm : ∀ (l : Dict JKey Int) e, l.mapM deserializeItem = .error e → e = .ValueError := by
      intro l
      induction l with
      | nil => intro e he; simp [List.mapM_nil, pure, Except.pure] at he
      | cons x l ih =>
        intro e he
        rw [List.mapM_cons] at he
        cases hx : deserializeItem x with
        | error e2 =>
          rw [hx] at he; simp only [bind, Except.bind] at he; injection he with he; subst he
          unfold deserializeItem at hx
          cases ht : x.1.toInt with
          | error e3 => rw [ht] at hx; simp only [bind, Except.bind] at hx; injection hx with hx; subst hx; exact toInt_err _ _ ht
          | ok n => rw [ht] at hx; simp only [bind, Except.bind] at hx; split at hx <;> simp at hx
        | ok o =>
          rw [hx] at he; simp only [bind, Except.bind] at he
          cases hl : l.mapM deserializeItem with
          | error e2 => rw [hl] at he; injection he with he; subst he; exact ih _ hl
          | ok os => rw [hl] at he; simp [pure, Except.pure] at he
    cases hl : d.mapM deserializeItem with
    | error e2 => rw [hl] at h; simp only [bind, Except.bind] at h; injection h with h; subst h; exact hm _ _ hl
    | ok os => rw [hl] at h; simp [bind, Except.bind] at h

/-- C14 on a concrete dictionary: a known item, an unknown type, an unknown value, a repeated type (string key). -/
example : (∀ kv ∈ ([(.int 0, 2), (.int 8, 1), (.int 1, 7), (.str (str! "0"), 3)] : Dict JKey Int), ∃ n, kv.1.toInt = .ok n) ∧
    Properties.deserialize [(.int 0, 2), (.int 8, 1), (.int 1, 7), (.str (str! "0"), 3)] =
      .ok (.new [.record .CASE_ACCUSATIVE]) := by
  constructor
  · intro kv hkv
    simp at hkv
    rcases hkv with rfl | rfl | rfl | rfl
    · exact ⟨0, rfl⟩
    · exact ⟨8, rfl⟩
    · exact ⟨1, rfl⟩
    · exact ⟨0, rfl⟩
  · decide

/-- **C13** Serialization, any number of keys turned into strings, items in any order, deserialization: an equal object. -/
theorem C13_roundtrip (p : Properties) (hp : WFProps p) (d d' : Dict JKey Int)
    (hj : List.Forall₂ ViaJson p.serialize d) (hperm : d'.Perm d) :
    ∃ q, Properties.deserialize d' = .ok q ∧ q.eq p = true := by
  -- items of `d` correspond to entries of `p`
  have hden : ∀ kv ∈ d, ∃ r, Denotes kv r ∧ p.data.get? r.group = some r := by
    have : List.Forall₂ (fun (e : Group × Rec) kv => Denotes kv e.2) p.data d := by
      have h2 := hp.2
      unfold Properties.serialize at hj
      rw [List.forall₂_map_left_iff] at hj
      clear hperm
      generalize p.data = l at *
      induction hj with
      | nil => exact .nil
      | @cons e kv l1 l2 hh ht ih =>
        refine .cons ?_ (ih (fun x hx => h2 x (List.mem_cons_of_mem _ hx)))
        have he : e.2.group = e.1 := h2 e (by simp)
        cases hh with
        | same => exact ⟨by simp [JKey.toInt, he], rfl⟩
        | stringified => exact ⟨by simp [JKey.toInt, he, pyInt_pyStr], rfl⟩
    intro kv hkv
    have hnd := hp.1
    have h2 := hp.2
    have : ∃ e ∈ p.data, Denotes kv e.2 := by
      clear hj hperm hnd h2 hp
      generalize p.data = l at *
      induction this with
      | nil => simp at hkv
      | cons hh ht ih =>
        rcases List.mem_cons.mp hkv with h | h
        · subst h; exact ⟨_, by simp, hh⟩
        · obtain ⟨e, he, hd⟩ := ih h; exact ⟨e, List.mem_cons_of_mem _ he, hd⟩
    obtain ⟨e, he, hd⟩ := this
    exact ⟨e.2, hd, by rw [h2 e he]; exact Dict.get?_of_mem hnd (by simpa using he)⟩
  have hden2 : ∀ r, p.data.get? r.group = some r → ∃ kv ∈ d, Denotes kv r := by
    intro r hr
    have hm := Dict.mem_of_get? hr
    clear hden hperm
    have h2 := hp.2
    unfold Properties.serialize at hj
    rw [List.forall₂_map_left_iff] at hj
    clear hp hr
    generalize p.data = l at *
    induction hj with
    | nil => simp at hm
    | @cons e kv l1 l2 hh ht ih =>
      rcases List.mem_cons.mp hm with h | h
      · subst h
        refine ⟨kv, by simp, ?_⟩
        simp only at hh
        cases hh with
        | same => exact ⟨by simp [JKey.toInt], rfl⟩
        | stringified => exact ⟨by simp [JKey.toInt, pyInt_pyStr], rfl⟩
      · obtain ⟨kv', hm', hd⟩ := ih h (fun x hx => h2 x (List.mem_cons_of_mem _ hx))
        exact ⟨kv', List.mem_cons_of_mem _ hm', hd⟩
  have hint : ∀ kv ∈ d', ∃ n, kv.1.toInt = .ok n := by
    intro kv hkv
    obtain ⟨r, hr, _⟩ := hden kv (hperm.mem_iff.mp hkv)
    exact ⟨_, hr.1⟩
  obtain ⟨q, hq, hqwf, hqs⟩ := C14_deserialize_known d' hint
  refine ⟨q, hq, ?_⟩
  rw [eq_iff_get? hqwf hp]
  have hq' : ∀ g r, q.data.get? g = some r ↔ p.data.get? g = some r := by
    intro g r
    have e1 : q.data.get? g = some r ↔ (q.isSpecified g = true ∧ q.get g = some r) := by
      rw [get?_eq_ite]; split <;> simp_all
    rw [e1, hqs]
    constructor
    · rintro ⟨rfl, pre, kv, post, rfl, hd, _⟩
      obtain ⟨r2, hr2, hg2⟩ := hden kv (hperm.mem_iff.mp (by simp))
      have hcode : (r.group.code : Int) = r2.group.code := by
        have := hd.1.symm.trans hr2.1; injection this
      have hgrp : r.group = r2.group := by
        have := congrArg groupOfCode hcode
        rw [groupOfCode_code, groupOfCode_code] at this; injection this
      have hval : (r.value : Int) = r2.value := hd.2.symm.trans hr2.2
      have : r = r2 := by
        have h3 := recOfValue_value r
        rw [hgrp, hval, recOfValue_value] at h3; injection h3 with h3; exact h3.symm
      rw [this]; exact hg2
    · intro hr
      have hgr : r.group = g := wf_group hp hr
      subst hgr
      refine ⟨rfl, ?_⟩
      obtain ⟨kv, hkv, hd⟩ := hden2 r hr
      -- take the last item denoting a record of this group
      have hmem : kv ∈ d' := hperm.mem_iff.mpr hkv
      have hlast : ∀ l : Dict JKey Int, (∃ kv ∈ l, ∃ r', Denotes kv r' ∧ r'.group = r.group) →
          ∃ pre kv post, l = pre ++ kv :: post ∧ (∃ r', Denotes kv r' ∧ r'.group = r.group) ∧
            ∀ kv' ∈ post, ∀ r', Denotes kv' r' → r'.group ≠ r.group := by
        intro l
        induction l with
        | nil => rintro ⟨_, h, _⟩; simp at h
        | cons x l ih =>
          rintro ⟨kv, hm, hr'⟩
          by_cases hl : ∃ kv ∈ l, ∃ r', Denotes kv r' ∧ r'.group = r.group
          · obtain ⟨pre, kv2, post, rfl, h1, h2⟩ := ih hl
            exact ⟨x :: pre, kv2, post, by simp, h1, h2⟩
          · rcases List.mem_cons.mp hm with h | h
            · subst h
              refine ⟨[], kv, l, by simp, hr', ?_⟩
              intro kv' hkv' r' hd' he
              exact hl ⟨kv', hkv', r', hd', he⟩
            · exact absurd ⟨kv, h, hr'⟩ hl
      obtain ⟨pre, kv2, post, hsplit, ⟨r', hd', hg'⟩, hpost⟩ := hlast d' ⟨kv, hmem, r, hd, rfl⟩
      obtain ⟨r2, hr2, hg2⟩ := hden kv2 (hperm.mem_iff.mp (by simp [hsplit]))
      have hcode : (r'.group.code : Int) = r2.group.code := by
        have := hd'.1.symm.trans hr2.1; injection this
      have hgrp : r'.group = r2.group := by
        have := congrArg groupOfCode hcode
        rw [groupOfCode_code, groupOfCode_code] at this; injection this
      rw [← hgrp, hg', hr] at hg2; injection hg2 with hg2; subst hg2
      exact ⟨pre, kv2, post, hsplit, hr2, hpost⟩
  intro g
  cases h1 : q.data.get? g with
  | some r => exact ((hq' g r).mp h1).symm
  | none =>
    cases h2 : p.data.get? g with
    | none => rfl
    | some r => rw [(hq' g r).mpr h2] at h1; simp at h1

/-- **C13** The plain round trip gives back the very same object, insertion order included. -/
theorem C13_roundtrip_exact (p : Properties) (hp : WFProps p) : Properties.deserialize p.serialize = .ok p := by
  have hitem : ∀ kv ∈ p.data, deserializeItem (.int kv.1.code, (kv.2.value : Int)) = .ok (some kv.2) := by
    intro kv hkv
    unfold deserializeItem
    simp only [JKey.toInt, bind, Except.bind, groupOfCode_code]
    have := hp.2 kv hkv
    rw [← this, recOfValue_value]
  have hmap : p.serialize.mapM deserializeItem = .ok (p.data.map fun kv => some kv.2) := by
    unfold Properties.serialize
    generalize p.data = l at *
    induction l with
    | nil => rfl
    | cons e l ih =>
      rw [List.map_cons, List.mapM_cons, hitem e (by simp), ih (fun kv h => hitem kv (List.mem_cons_of_mem _ h))]
      rfl
  unfold Properties.deserialize
  rw [hmap]
  have hf : ((p.data.map fun kv => some kv.2).filterMap id) = p.data.map Prod.snd := by simp [List.filterMap_map]
  simp only [bind, Except.bind, hf]
  have key : ∀ (l d : Dict Group Rec), (∀ kv ∈ l, kv.2.group = kv.1) → (Dict.keys (d ++ l)).Nodup →
      ((l.map Prod.snd).map Arg.record).foldl Properties.updateOne d = d ++ l := by
    intro l
    induction l with
    | nil => intro d _ _; simp
    | cons e l ih =>
      obtain ⟨g, r⟩ := e
      intro d hg hn
      have hgr : r.group = g := hg (g, r) (by simp)
      have hset : Dict.set d r.group r = d ++ [(g, r)] := by
        rw [hgr]
        have hnot : g ∉ Dict.keys d := by
          intro hm
          simp only [Dict.keys, List.map_append, List.map_cons] at hn hm
          exact (List.nodup_append.mp hn).2.2 g hm g (by simp) rfl
        clear hn ih hg
        induction d with
        | nil => rfl
        | cons x d ih =>
          obtain ⟨a, b⟩ := x
          simp only [Dict.keys, List.map_cons, List.mem_cons, not_or] at hnot
          have h1 : ¬ a = g := fun e => hnot.1 e.symm
          simp only [Dict.set, h1, if_false, List.cons_append]
          rw [ih hnot.2]
      simp only [List.map_cons, List.foldl_cons, Properties.updateOne, hset]
      rw [ih (d ++ [(g, r)]) (fun kv h => hg kv (List.mem_cons_of_mem _ h)) (by simpa using hn)]
      simp
  have := key p.data [] hp.2 (by simpa [Dict.keys] using hp.1)
  simp only [Properties.new, this, List.nil_append]

/-- C13 on a concrete object: two properties, keys made strings, items swapped. -/
example : List.Forall₂ ViaJson (Properties.new [.record .CASE_DATIVE, .record .TIME_FUTURE]).serialize
      [(.str (pyStr 0), 2), (.str (pyStr 5), 3)] ∧
    ([(.str (pyStr 5), 3), (.str (pyStr 0), 2)] : Dict JKey Int).Perm [(.str (pyStr 0), 2), (.str (pyStr 5), 3)] :=
  ⟨.cons (.stringified _ _) (.cons (.stringified _ _) .nil), List.Perm.swap _ _ _⟩

end Utg
