import Verif.Lemmas.EmdVelox
/-!
Lemmas about `Model/EmdVelox.lean`: names of pictures and their labels.
-/
namespace Verif.EmdVelox
open Verif Verif.Spec.EmdVelox

theorem inText_mention {key : Text} {field : String} {m : J} (h : Mentions key field m) :
    ∃ p, m.get field.toList = .ok p ∧ inText key p = .ok true := by
  obtain ⟨p, h1, h2⟩ := h
  exact ⟨.str p, get_look1 h1, by simp [inText, h2]⟩

theorem inText_omit {key : Text} {field : String} {m : J} (h : Omits key field m) :
    ∃ p, m.get field.toList = .ok p ∧ inText key p = .ok false := by
  obtain ⟨p, h1, h2⟩ := h
  exact ⟨.str p, get_look1 h1, by simp [inText, h2]⟩

theorem dpcName_ok {i : J} {n : Text} (h : dpc i n) : dpcName i = n := by
  rcases h with ⟨rfl, rfl⟩ | ⟨t, rfl, h1, rfl⟩
  · rfl
  · simp only [dpcName, J.isText, decide_eq_false h1, Bool.false_eq_true, if_false]

/-- The optional path of unfiltered data. -/
theorem unfiltered_no {key : Text} {m : J}
    (h : (look ["unfilteredDataPath".toList] m = none ∧ ∃ d, m = .dict d) ∨ Omits key "unfilteredDataPath" m) :
    ∃ o, m.opt "unfilteredDataPath".toList = .ok o ∧
      (match o with | some p => inText key p | none => pure false) = .ok false := by
  rcases h with ⟨h, d, rfl⟩ | ⟨p, h1, h2⟩
  · refine ⟨none, ?_, rfl⟩
    rw [opt_look, h]
  · obtain ⟨d, w, rfl, h3, h4⟩ := look_cons h1
    refine ⟨some (.str p), ?_, by simp [inText, h2]⟩
    rw [opt_look, h1]

theorem mention_dict {key : Text} {field : String} {m : J} (h : Mentions key field m) : ∃ d, m = .dict d := by
  obtain ⟨p, h1, _⟩ := h
  obtain ⟨d, w, rfl, _, _⟩ := look_cons h1
  exact ⟨d, rfl⟩

theorem isText_true : (J.str "true".toList).isText "true" = true := by simp [J.isText]

theorem operation2_hit {key : Text} {m i : J} {n : Text}
    (h : (look ["unfilteredDataPath".toList] m = none ∨ Omits key "unfilteredDataPath" m)) (hm : Mentions key "dataPath" m)
    (hi : look ["integrationMode".toList] m = some i) (hd : dpc i n) {t : Text}
    (ht : look ["enableFilter".toList] m = some (.str t)) :
    operation key 2 m = .ok (some (.str (if t = "true".toList then "Filtered ".toList ++ n else n))) := by
  obtain ⟨o, h1, h2⟩ := unfiltered_no (key := key) (m := m) (by
    rcases h with h | h
    · exact Or.inl ⟨h, mention_dict hm⟩
    · exact Or.inr h)
  obtain ⟨p, h3, h4⟩ := inText_mention hm
  have h5 := get_look1 hi
  have h6 := get_look1 ht
  have hfin : (if (J.str t).isText "true" = true then "Filtered ".toList ++ n else n) =
      if t = "true".toList then "Filtered ".toList ++ n else n := by
    by_cases hx : t = "true".toList
    · rw [if_pos hx, if_pos (by rw [hx]; exact isText_true)]
    · rw [if_neg hx, if_neg (by simpa [J.isText] using hx)]
  rw [← hfin]
  unfold operation
  cases o with
  | none =>
    simp only [h1, bind, Except.bind, pure, Except.pure, h3, h4, h5, h6, dpcName_ok hd, if_true, Bool.false_eq_true, if_false]
  | some q =>
    replace h2 : inText key q = .ok false := h2
    simp only [h1, h2, bind, Except.bind, pure, Except.pure, h3, h4, h5, h6, dpcName_ok hd, if_true, Bool.false_eq_true,
      if_false]

/-- An operation that mentions the picture gives its name. -/
theorem operation_hit {key : Text} {kind : String} {m n : J} (h : OpName key kind m n) {i : Nat}
    (hi : (i, kind) ∈ (List.range 7).zip operationKeys) : operation key i m = .ok (some n) := by
  cases h with
  | camera h1 h2 =>
    have : i = 0 := by
      revert hi; simp [operationKeys, List.range, List.range.loop]
    subst this
    obtain ⟨p, h3, h4⟩ := inText_mention h1
    simp only [operation, h3, h4, bind, Except.bind, get_look1 h2, pure, Except.pure, if_true]
  | stem h1 h2 =>
    have : i = 1 := by
      revert hi; simp [operationKeys, List.range, List.range.loop]
    subst this
    obtain ⟨p, h3, h4⟩ := inText_mention h1
    simp only [operation, h3, h4, bind, Except.bind, get_look1 h2, pure, Except.pure, if_true]
  | unfiltered h1 h2 h3 =>
    have : i = 2 := by
      revert hi; simp [operationKeys, List.range, List.range.loop]
    subst this
    obtain ⟨p, h4, h5⟩ := inText_mention h1
    obtain ⟨d, w, rfl, g1, g2⟩ := get_dict h4
    subst g2
    simp only [operation, J.opt, g1, bind, Except.bind, h5, get_look1 h2, pure, Except.pure, if_true, dpcName_ok h3]
  | plain h1 h2 h3 h4 h5 h6 =>
    have : i = 2 := by
      revert hi; simp [operationKeys, List.range, List.range.loop]
    subst this
    rw [operation2_hit h1 h2 h3 h4 h5, if_neg h6]
  | filtered h1 h2 h3 h4 h5 =>
    have : i = 2 := by
      revert hi; simp [operationKeys, List.range, List.range.loop]
    subst this
    rw [operation2_hit h1 h2 h3 h4 h5, if_pos rfl]
  | ac h1 h2 h3 =>
    have : i = 3 := by
      revert hi; simp [operationKeys, List.range, List.range.loop]
    subst this
    obtain ⟨p, h4, h5⟩ := inText_mention h1
    have e1 : (J.str "0".toList).isText "0" = true := by simp [J.isText]
    simp only [operation, h4, h5, bind, Except.bind, get_look1 h2, get_look1 h3, pure, Except.pure, if_true, e1]
  | bd h1 h2 h3 =>
    have : i = 3 := by
      revert hi; simp [operationKeys, List.range, List.range.loop]
    subst this
    obtain ⟨p, h4, h5⟩ := inText_mention h1
    have e1 : (J.str "1".toList).isText "0" = false := by simp [J.isText]
    have e2 : (J.str "1".toList).isText "1" = true := by simp [J.isText]
    simp only [operation, h4, h5, bind, Except.bind, get_look1 h2, get_look1 h3, pure, Except.pure, if_true, e1, e2,
      Bool.false_eq_true, if_false]
  | dpcOp h1 =>
    have : i = 4 := by
      revert hi; simp [operationKeys, List.range, List.range.loop]
    subst this
    obtain ⟨p, h3, h4⟩ := inText_mention h1
    simp only [operation, h3, h4, bind, Except.bind, pure, Except.pure, if_true]
  | dcfi h1 =>
    have : i = 5 := by
      revert hi; simp [operationKeys, List.range, List.range.loop]
    subst this
    obtain ⟨p, h3, h4⟩ := inText_mention h1
    simp only [operation, h3, h4, bind, Except.bind, pure, Except.pure, if_true]
  | fft h1 =>
    have : i = 6 := by
      revert hi; simp [operationKeys, List.range, List.range.loop]
    subst this
    obtain ⟨p, h3, h4⟩ := inText_mention h1
    simp only [operation, h3, h4, bind, Except.bind, pure, Except.pure, if_true]

/-- An operation about other datasets gives no name. -/
theorem operation_silent {key : Text} {kind : String} {m : J} (h : Silent key kind m) {i : Nat}
    (hi : (i, kind) ∈ (List.range 7).zip operationKeys) : operation key i m = .ok none := by
  have hz : (List.range 7).zip operationKeys = [(0, "CameraInputOperation"), (1, "StemInputOperation"),
    (2, "SurfaceReconstructionOperation"), (3, "MathematicsOperation"), (4, "DpcOperation"), (5, "IntegrationOperation"),
    (6, "FftOperation")] := rfl
  rw [hz] at hi
  simp only [List.mem_cons, Prod.mk.injEq, List.not_mem_nil, or_false] at hi
  obtain ⟨h1, h2⟩ := h
  rcases hi with ⟨rfl, rfl⟩ | ⟨rfl, rfl⟩ | ⟨rfl, rfl⟩ | ⟨rfl, rfl⟩ | ⟨rfl, rfl⟩ | ⟨rfl, rfl⟩ | ⟨rfl, rfl⟩
  case inr.inr.inl =>
    obtain ⟨o, g1, g2⟩ := unfiltered_no (h2 rfl)
    rw [if_neg (by decide)] at h1
    obtain ⟨p, h3, h4⟩ := inText_omit h1
    unfold operation
    cases o with
    | none => simp only [g1, bind, Except.bind, pure, Except.pure, h3, h4, Bool.false_eq_true, if_false]
    | some q =>
      replace g2 : inText key q = .ok false := g2
      simp only [g1, g2, bind, Except.bind, pure, Except.pure, h3, h4, Bool.false_eq_true, if_false]
  case inr.inr.inr.inr.inr.inr =>
    rw [if_pos rfl] at h1
    obtain ⟨p, h3, h4⟩ := inText_omit h1
    simp only [operation, h3, h4, bind, Except.bind, pure, Except.pure, Bool.false_eq_true, if_false]
  all_goals
    rw [if_neg (by decide)] at h1
    obtain ⟨p, h3, h4⟩ := inText_omit h1
    simp only [operation, h3, h4, bind, Except.bind, pure, Except.pure, Bool.false_eq_true, if_false]

theorem firstOf_silent {key : Text} {kind : String} {i : Nat} (hi : (i, kind) ∈ (List.range 7).zip operationKeys) :
    ∀ d : Dict, (∀ e ∈ d, Silent key kind e.2) → firstOf (operation key i) d = .ok none
  | [], _ => rfl
  | (_, m) :: d, h => by
    have h1 := operation_silent (h _ (List.mem_cons_self ..)) hi
    have ih := firstOf_silent hi d fun e he => h e (List.mem_cons_of_mem _ he)
    simp only [firstOf, h1, bind, Except.bind, ih]

theorem firstOf_hit {key : Text} {kind : String} {i : Nat} (hi : (i, kind) ∈ (List.range 7).zip operationKeys)
    {e : Text × J} {post : Dict} {n : J} (he : OpName key kind e.2 n) :
    ∀ pre : Dict, (∀ p ∈ pre, Silent key kind p.2) → firstOf (operation key i) (pre ++ e :: post) = .ok (some n)
  | [], _ => by
    obtain ⟨k, m⟩ := e
    simp only [List.nil_append, firstOf, operation_hit he hi, bind, Except.bind, pure, Except.pure]
  | (_, m) :: pre, h => by
    have h1 := operation_silent (h _ (List.mem_cons_self ..)) hi
    have ih := firstOf_hit hi he (post := post) pre fun e he => h e (List.mem_cons_of_mem _ he)
    simp only [List.cons_append, firstOf, h1, bind, Except.bind, ih]

theorem nameLoop_silent {key : Text} {ops : Dict} {rest : List (Nat × String)} :
    ∀ l : List (Nat × String), (∀ p ∈ l, p ∈ (List.range 7).zip operationKeys) → (∀ p ∈ l, SilentKind key ops p.2) →
      nameLoop key (.dict ops) (l ++ rest) = nameLoop key (.dict ops) rest
  | [], _, _ => rfl
  | (i, k) :: l, h1, h2 => by
    have ih := nameLoop_silent (key := key) (ops := ops) (rest := rest) l (fun p hp => h1 p (List.mem_cons_of_mem _ hp))
      fun p hp => h2 p (List.mem_cons_of_mem _ hp)
    simp only [List.cons_append, nameLoop, J.opt, bind, Except.bind]
    rcases h2 _ (List.mem_cons_self ..) with h | ⟨d, h, hs⟩
    · rw [entry_eq] at h
      simp only at h
      rw [h]
      exact ih
    · rw [entry_eq] at h
      simp only at h hs
      rw [h]
      simp only [J.items, firstOf_silent (h1 _ (List.mem_cons_self ..)) d hs]
      exact ih

theorem nameLoop_ok {key : Text} {ops : Dict} {n : J} (h : NamedBy key ops n) :
    nameLoop key (.dict ops) ((List.range 7).zip operationKeys) = .ok n := by
  have hz : ((List.range 7).zip operationKeys).map Prod.snd = opKinds := rfl
  rcases h with ⟨before, kind, after, h1, h2, pre, e, post, h3, h4, h5⟩ | ⟨h1, rfl⟩
  · rw [h1] at hz
    obtain ⟨l1, l2, e1, e2, e3⟩ := List.map_eq_append_iff.1 hz
    obtain ⟨⟨i, k⟩, l3, rfl, rfl, e5⟩ := List.map_eq_cons_iff.1 e3
    have hmem : ∀ p ∈ l1, p ∈ (List.range 7).zip operationKeys := by
      intro p hp
      rw [e1]
      exact List.mem_append_left _ hp
    have hi : (i, k) ∈ (List.range 7).zip operationKeys := by
      rw [e1]
      exact List.mem_append_right _ (List.mem_cons_self ..)
    rw [e1, nameLoop_silent l1 hmem (fun p hp => h2 p.2 (by rw [← e2]; exact List.mem_map_of_mem hp))]
    rw [entry_eq] at h3
    simp only [nameLoop, J.opt, bind, Except.bind]
    simp only at h3
    rw [h3]
    simp only [J.items, firstOf_hit hi h5 pre h4, pure, Except.pure]
  · have := nameLoop_silent (key := key) (ops := ops) (rest := []) ((List.range 7).zip operationKeys) (fun p hp => hp)
      (fun p hp => h1 p.2 (by rw [← hz]; exact List.mem_map_of_mem hp))
    rw [List.append_nil] at this
    rw [this]
    rfl

theorem detectorName_ok {om ops : Dict} {key : Text} {n : J} (h : getKw "Operations".toList om = some (.dict ops))
    (hn : NamedBy key ops n) : detectorName om key = .ok n := by
  have h1 : sub "Operations".toList om = .ok (.dict ops) := by
    unfold sub
    rw [h]
  unfold detectorName
  rw [h1]
  exact nameLoop_ok hn

theorem imageDetector_ok {env : Env} {groups : Text → Option J} {st : St} {key : Text} {om d : Dict} {n : J}
    (hst : ∀ k, getKw k st.om = groups k) (ha : Agree om d) (h : PictureName env groups key d n) :
    imageDetector env st key om = .ok (some n) := by
  unfold imageDetector
  rcases h with ⟨ops, o, h1, h2, h3⟩ | ⟨h1, o, h2, h3⟩
  · have e1 := detectorInformation_ok ((detectorOf_agree ha).2 h2)
    have e2 := detectorName_ok (om := st.om) (by rw [hst, h1]) h3
    simp only [e1, bind, Except.bind, e2, pure, Except.pure]
  · have e1 := detectorInformation_ok ((detectorOf_agree ha).2 h2)
    have e2 : detectorName st.om key = .error .keyError := by
      have : sub "Operations".toList st.om = .error .keyError := by
        unfold sub
        rw [hst, h1]
      unfold detectorName
      rw [this]
      rfl
    simp only [e1, bind, Except.bind, e2, get_look1 h3, pure, Except.pure]

end Verif.EmdVelox
