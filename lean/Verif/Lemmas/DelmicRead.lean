import Verif.Lemmas.DelmicAxes
/-! Reading one acquisition, and all of them, for `Model/Delmic`. -/
namespace Verif.Delmic
open Verif Verif.Delmic.Spec

/-- The value an entry gives. -/
def valOf (k : Text) (i : Item) : Option V :=
  if i.dataset = true ∧ k ≠ "Title".toList then
    match i.state with
    | .list (n :: _) => if n ≠ 111 then i.value else none
    | _ => none
  else none

theorem addItem_ok (d : List (Text × V)) (e : Text × Item) (h : e.2.dataset = true → e.1 ≠ "Title".toList → ∃ n ns, e.2.state = .list (n :: ns)) :
    ∃ d', addItem d e = .ok d' ∧ ∀ k, getKw k d' = if k = e.1 then (valOf e.1 e.2 <|> getKw k d) else getKw k d := by
  unfold addItem valOf
  by_cases h1 : e.2.dataset = true
  · by_cases h2 : e.1 = "Title".toList
    · exact ⟨d, by simp [h1, h2], fun k => by simp [h2]⟩
    · obtain ⟨n, ns, hs⟩ := h h1 h2
      rw [if_neg (by simp [h1]), if_neg h2, if_pos ⟨h1, h2⟩, hs]
      by_cases h3 : n = 111
      · exact ⟨d, by simp [keepItem, h3, bind, Except.bind, pure, Except.pure], fun k => by simp [h3]⟩
      · cases hv : e.2.value with
        | none => exact ⟨d, by simp [keepItem, h3, bind, Except.bind, pure, Except.pure], fun k => by simp [h3]⟩
        | some v =>
          refine ⟨setKw e.1 v d, by simp [keepItem, h3, bind, Except.bind, pure, Except.pure], fun k => ?_⟩
          rw [getKw_setKw]
          simp [h3]
  · exact ⟨d, by simp [h1], fun k => by simp [h1]⟩

theorem addItems_ok : ∀ (es : List (Text × Item)) (d : List (Text × V)), (es.map Prod.fst).Nodup →
    (∀ e ∈ es, e.2.dataset = true → e.1 ≠ "Title".toList → ∃ n ns, e.2.state = .list (n :: ns)) →
    ∃ d', es.foldlM addItem d = .ok d' ∧ ∀ k, getKw k d' = ((getKw k es).bind (valOf k) <|> getKw k d)
  | [], d, _, _ => ⟨d, rfl, fun k => by simp [getKw]⟩
  | e :: es, d, hn, hs => by
    obtain ⟨d1, h1, g1⟩ := addItem_ok d e (hs e (by simp))
    simp only [List.map_cons, List.nodup_cons] at hn
    obtain ⟨d2, h2, g2⟩ := addItems_ok es d1 hn.2 fun x hx => hs x (by simp [hx])
    refine ⟨d2, by rw [List.foldlM_cons, h1]; exact h2, fun k => ?_⟩
    rw [g2, g1]
    obtain ⟨k', i⟩ := e
    by_cases hk : k = k'
    · subst hk
      rw [getKw_none hn.1]
      simp [getKw]
    · rw [if_neg hk, getKw, if_neg (fun h => hk h.symm)]

theorem entry_iff {a : Acq} (hn : (a.physical.map Prod.fst).Nodup) {k : Text} (hk : k ≠ "Title".toList) (v : V) :
    (getKw k a.physical).bind (valOf k) = some v ↔ Entry a k v := by
  constructor
  · intro h
    obtain ⟨i, h1, h2⟩ := Option.bind_eq_some_iff.1 h
    have hm := mem_of_getKw h1
    unfold valOf at h2
    obtain ⟨ds, st, va⟩ := i
    split at h2
    · rename_i hc
      split at h2
      · rename_i n ns hst
        split at h2
        · rename_i h3
          dsimp only at hst h2 hc
          obtain ⟨hc, -⟩ := hc
          subst hc hst h2
          exact ⟨n, ns, hm, h3⟩
        · cases h2
      · cases h2
    · cases h2
  · rintro ⟨n, ns, hm, h3⟩
    rw [getKw_mem hn hm, Option.bind_some, valOf, if_pos ⟨rfl, hk⟩]
    exact if_pos h3

theorem axisLength_eq {a : Acq} (name : String) (label : Text) (hname : nameOf label = name.toList) (hn : (a.image.map Prod.fst).Nodup)
    (hl : name ∈ ["Wavelength", "Time", "Angle"])
    (hinj : ∀ l ∈ a.labels, nameOf l = name.toList → l = label) : ∀ (ls : List Text) (sh : List Nat), (∀ l ∈ ls, l ∈ a.labels) →
      axisLength name ((ls.zip sh).map fun d => makeAxis a.image d.1 d.2) sh = ((ls.zip sh).lookup label).getD 1
  | [], sh, _ => by simp [axisLength]
  | l :: ls, [], _ => by simp [axisLength]
  | l :: ls, n :: sh, h => by
    rw [List.zip_cons_cons, List.map_cons, axisLength, (makeAxis_shows hn l n).1, List.lookup]
    by_cases e : l = label
    · rw [if_pos (by rw [e, hname])]
      simp [e]
    · rw [if_neg (fun h' => e (hinj l (h l (by simp)) h'))]
      have : (label == l) = false := by simpa using fun h => e h.symm
      rw [this]
      exact axisLength_eq name label hname hn hl hinj ls sh fun x hx => h x (by simp [hx])

theorem kind_core {k : Kind} {d w1 w2 w3 w4 : Text} {a t c : Nat} {p : Bool} {P : V → Prop} (n1 : w2 ≠ w3) (n2 : w2 ≠ w4) (n3 : w3 ≠ w4)
    (hp : p = true ↔ ∃ l, P (.list l))
    (hk : if k = .anchor then d = w1
      else d ≠ w1 ∧
        match k with
        | .ek1 => 1 < a ∧ 1 < c
        | .tempSpec => a = 1 ∧ 1 < t ∧ 1 < c
        | .temporal => a = 1 ∧ 1 < t ∧ c = 1
        | .spectrum => a = 1 ∧ t = 1 ∧ 1 < c
        | .unknown => (1 < a ∧ c = 1) ∨ (a = 1 ∧ t = 1 ∧ c = 1 ∧ (∀ l, ¬ P (.list l)) ∧ d ∉ [w2, w3, w4])
        | k => a = 1 ∧ t = 1 ∧ c = 1 ∧
            if k = .ar then ∃ l, P (.list l)
            else (∀ l, ¬ P (.list l)) ∧ (k, d) ∈ [(Kind.se, w2), (Kind.survey, w3), (Kind.pmt, w4)]) :
    (if decide (d = w1) = true then (.ok .anchor : Py Kind)
    else if a > 1 then if c > 1 then .ok .ek1 else .ok .unknown
    else if t > 1 then if c = 1 then .ok .temporal else .ok .tempSpec
    else if c > 1 then .ok .spectrum
    else if p = true then .ok .ar
    else if decide (d = w2) = true then .ok .se
    else if decide (d = w3) = true then .ok .survey
    else if decide (d = w4) = true then .ok .pmt
    else .ok .unknown) = .ok k := by
  have hp' : (∀ l, ¬ P (.list l)) → p = false := by
    intro h
    rw [Bool.eq_false_iff]
    intro h'
    obtain ⟨l, hl⟩ := hp.1 h'
    exact h l hl
  cases k with
  | anchor =>
    simp only [if_true] at hk
    simp [hk]
  | ek1 =>
    simp only [reduceCtorEq, if_false] at hk
    obtain ⟨h1, h2, h3⟩ := hk
    simp [h1, h2, h3]
  | tempSpec =>
    simp only [reduceCtorEq, if_false] at hk
    obtain ⟨h1, h2, h3, h4⟩ := hk
    have : c ≠ 1 := by omega
    simp [h1, h2, h3, this]
  | temporal =>
    simp only [reduceCtorEq, if_false] at hk
    obtain ⟨h1, h2, h3, h4⟩ := hk
    simp [h1, h2, h3, h4]
  | spectrum =>
    simp only [reduceCtorEq, if_false] at hk
    obtain ⟨h1, h2, h3, h4⟩ := hk
    simp [h1, h2, h3, h4]
  | unknown =>
    simp only [reduceCtorEq, if_false] at hk
    obtain ⟨h1, h2 | ⟨h2, h3, h4, h5, h6⟩⟩ := hk
    · simp [h1, h2.1, h2.2]
    · simp only [List.mem_cons, List.not_mem_nil, or_false, not_or] at h6
      simp [h1, h2, h3, h4, hp' h5, h6]
  | ar =>
    simp only [reduceCtorEq, if_false, if_true] at hk
    obtain ⟨h1, h2, h3, h4, h5⟩ := hk
    simp [h1, h2, h3, h4, hp.2 h5]
  | se =>
    simp only [reduceCtorEq, if_false] at hk
    obtain ⟨h1, h2, h3, h4, h5, h6⟩ := hk
    simp only [List.mem_cons, Prod.mk.injEq, reduceCtorEq, false_and, or_false, true_and, List.not_mem_nil] at h6
    subst h6
    simp [h1, h2, h3, h4, hp' h5]
  | survey =>
    simp only [reduceCtorEq, if_false] at hk
    obtain ⟨h1, h2, h3, h4, h5, h6⟩ := hk
    simp only [List.mem_cons, Prod.mk.injEq, reduceCtorEq, false_and, or_false, true_and, List.not_mem_nil, false_or] at h6
    subst h6
    simp [h1, h2, h3, h4, hp' h5, n1.symm]
  | pmt =>
    simp only [reduceCtorEq, if_false] at hk
    obtain ⟨h1, h2, h3, h4, h5, h6⟩ := hk
    simp only [List.mem_cons, Prod.mk.injEq, reduceCtorEq, false_and, or_false, true_and, List.not_mem_nil, false_or] at h6
    subst h6
    simp [h1, h2, h3, h4, hp' h5, n2.symm, n3.symm]

theorem guess_ok {r : Rec} (hr : Sound r) (om : List (Text × V))
    (hom : ∀ k, k ∈ ["ChannelDescription".toList, "PolePosition".toList] → ∀ v, getKw k om = some v ↔ Entry r.acq k v) :
    guessKind r.acq.shape (makeAxes r.acq) om = .ok r.kind := by
  have inj : ∀ (label : Text) (name : Text), nameOf label = name → name ∈ ["Wavelength".toList, "Time".toList, "Angle".toList] →
      (∀ t ∈ ["Wavelength".toList, "Time".toList, "Angle".toList], t ≠ label) → ∀ l ∈ r.acq.labels, nameOf l = name → l = label := by
    intro label name h1 h2 h3 l hl e
    apply nameOf_inj (l := l) (l' := label)
    · intro t ht
      exact ⟨fun h => hr.names t ht (h ▸ hl), h3 t ht⟩
    · rw [e, h1]
  have hC : axisLength "Wavelength" (makeAxes r.acq) r.acq.shape = extent r.acq ['C'] :=
    axisLength_eq "Wavelength" ['C'] rfl hr.image (by decide) (inj _ _ rfl (by decide) (by decide)) _ _ fun _ h => h
  have hT : axisLength "Time" (makeAxes r.acq) r.acq.shape = extent r.acq ['T'] :=
    axisLength_eq "Time" ['T'] rfl hr.image (by decide) (inj _ _ rfl (by decide) (by decide)) _ _ fun _ h => h
  have hA : axisLength "Angle" (makeAxes r.acq) r.acq.shape = extent r.acq ['A'] :=
    axisLength_eq "Angle" ['A'] rfl hr.image (by decide) (inj _ _ rfl (by decide) (by decide)) _ _ fun _ h => h
  obtain ⟨d, hd, hk⟩ := hr.kind
  have hd' := (hom _ (List.mem_cons_self ..) _).2 hd
  have hp : isList (getKw "PolePosition".toList om) = true ↔ ∃ l, Entry r.acq "PolePosition".toList (.list l) := by
    constructor
    · intro h
      cases e : getKw "PolePosition".toList om with
      | none => rw [e] at h; cases h
      | some v =>
        have he := (hom _ (List.mem_cons_of_mem _ (List.mem_cons_self ..)) _).1 e
        rw [e] at h
        cases v with
        | list l => exact ⟨l, he⟩
        | _ => cases h
    · rintro ⟨l, h⟩
      rw [(hom _ (List.mem_cons_of_mem _ (List.mem_cons_self ..)) _).2 h]
      rfl
  unfold guessKind
  rw [hd']
  dsimp only
  rw [hC, hT, hA]
  have ht : ∀ t : String, isText (.str d) t = decide (d = t.toList) := fun _ => rfl
  rw [ht, ht, ht, ht]
  generalize extent r.acq ['A'] = a at *
  generalize extent r.acq ['T'] = t at *
  generalize extent r.acq ['C'] = c at *
  have n1 : "Secondary electrons concurrent".toList ≠ "Secondary electrons survey".toList := by decide
  have n2 : "Secondary electrons concurrent".toList ≠ "CL intensity".toList := by decide
  have n3 : "Secondary electrons survey".toList ≠ "CL intensity".toList := by decide
  generalize "Anchor region".toList = w1 at *
  generalize "Secondary electrons concurrent".toList = w2 at *
  generalize "Secondary electrons survey".toList = w3 at *
  generalize "CL intensity".toList = w4 at *
  exact kind_core n1 n2 n3 hp hk

/-- What has been read of an acquisition. -/
structure IsRead (utc : Utc) (r : Rec) (s : Sig) : Prop where
  kind : s.kind = r.kind
  shape : s.shape = r.acq.shape
  data : s.data = r.acq.data
  axes : s.axes = makeAxes r.acq
  info : ShowsMeta utc r s.metadata s.original
  date : dateOf s = r.time
  pol : getKw "Polarization".toList s.original = r.polarization.map .str

theorem read_ok {utc : Utc} {r : Rec} (hr : Sound r) : ∃ s, readAcquisition utc r.acq = .ok s ∧ IsRead utc r s := by
  obtain ⟨d, hd, hg⟩ := addItems_ok r.acq.physical [] hr.physical hr.states
  have hg' : ∀ k, k ≠ "Title".toList → ∀ v, getKw k d = some v ↔ Entry r.acq k v := by
    intro k hk v
    rw [hg k, ← entry_iff hr.physical hk]
    simp [getKw]
  have ht : getKw "Title".toList d = none := by
    rw [hg]
    have : ((getKw "Title".toList r.acq.physical).bind fun x => valOf "Title".toList x) = none := by
      rw [Option.bind_eq_none_iff]
      intro i _
      simp [valOf]
    rw [this]
    rfl
  have hl : loadImage r.acq = .ok (r.acq.shape, r.acq.data) := by
    simp [loadImage, hr.dataset, hr.shape]
  have ho : originalMetadata r.acq = .ok (setKw "SVIData".toList (.dict (sviEntries r.acq.svi)) (setKw "HDF5Group".toList (.str r.acq.name)
      (setKw "AcquisitionDate".toList (.num r.time) d))) := by
    unfold originalMetadata
    rw [hd, getKw_mem hr.image hr.time]
    rfl
  generalize hom : (setKw "SVIData".toList (V.dict (sviEntries r.acq.svi)) (setKw "HDF5Group".toList (.str r.acq.name)
      (setKw "AcquisitionDate".toList (.num r.time) d))) = om at ho
  have gk : ∀ k, k ∉ ["AcquisitionDate".toList, "HDF5Group".toList, "SVIData".toList] → getKw k om = getKw k d := by
    intro k hk
    simp only [List.mem_cons, List.not_mem_nil, or_false, not_or] at hk
    rw [← hom, getKw_setKw, getKw_setKw, getKw_setKw, if_neg hk.2.2, if_neg hk.2.1, if_neg hk.1]
  have hk : guessKind r.acq.shape (makeAxes r.acq) om = .ok r.kind := by
    apply guess_ok hr
    intro k hk v
    have h1 : ∀ k ∈ ["ChannelDescription".toList, "PolePosition".toList], k ∉ ["AcquisitionDate".toList, "HDF5Group".toList, "SVIData".toList] := by
      decide
    have h2 : ∀ k ∈ ["ChannelDescription".toList, "PolePosition".toList], k ≠ "Title".toList := by decide
    rw [gk k (h1 k hk), hg' k (h2 k hk)]
  have hdate : getKw "AcquisitionDate".toList om = some (.num r.time) := by
    rw [← hom, getKw_setKw, getKw_setKw, getKw_setKw, if_neg (by decide), if_neg (by decide), if_pos rfl]
  have hpol : getKw "Polarization".toList om = r.polarization.map .str := by
    rw [gk _ (by decide)]
    have hp := hr.polarization
    cases e : r.polarization with
    | none =>
      rw [e] at hp
      dsimp only at hp
      cases e' : getKw "Polarization".toList d with
      | none => rfl
      | some v => exact absurd ((hg' _ (by decide) v).1 e') (hp v)
    | some p =>
      rw [e] at hp
      exact (hg' _ (by decide) _).2 hp
  obtain ⟨t, htt, hte⟩ : ∃ t, r.acq.title = some t ∧ t.getD "__unnamed__".toList = r.title := by
    rcases hr.title with h | ⟨h, h'⟩
    · exact ⟨_, h, rfl⟩
    · exact ⟨_, h, h'.symm⟩
  have hm : makeMetadata utc r.acq r.kind om = .ok ⟨r.title, signalType r.kind, r.polarization.map .str, utc r.time⟩ := by
    unfold makeMetadata
    rw [htt]
    dsimp only
    rw [hte, hpol, hdate]
  refine ⟨(⟨r.kind, r.acq.shape, r.acq.data, makeAxes r.acq, ⟨r.title, signalType r.kind, r.polarization.map .str, utc r.time⟩, om⟩ : Sig),
    ?_, rfl, rfl, rfl, rfl, ?_, ?_, hpol⟩
  · unfold readAcquisition
    rw [hl, ho]
    simp only [bind, Except.bind]
    rw [hk]
    dsimp only
    rw [hm]
    rfl
  · refine ⟨rfl, ?_, rfl, rfl, hdate, ?_, ?_, ?_, ?_⟩
    · dsimp only
      cases r.kind <;> rfl
    · dsimp only
      rw [← hom, getKw_setKw, getKw_setKw, if_neg (by decide), if_pos rfl]
    · refine ⟨sviEntries r.acq.svi, ?_, ?_⟩
      · dsimp only
        rw [← hom, getKw_setKw, if_pos rfl]
      · intro k v
        unfold sviEntries
        rw [List.mem_filterMap]
        constructor
        · rintro ⟨k', h1, h2⟩
          obtain ⟨t, h3, h4⟩ := Option.map_eq_some_iff.1 h2
          obtain ⟨rfl, rfl⟩ := Prod.mk.inj h4
          exact ⟨h1, t, rfl, h3⟩
        · rintro ⟨h1, t, rfl, h3⟩
          exact ⟨k, h1, by rw [h3]; rfl⟩
    · intro k hk v
      dsimp only
      have h3 : k ∉ ["AcquisitionDate".toList, "HDF5Group".toList, "SVIData".toList] ∧ k ≠ "Title".toList := by
        simp only [List.mem_cons, List.not_mem_nil, or_false, not_or] at hk ⊢
        exact ⟨⟨hk.1, hk.2.1, hk.2.2.1⟩, hk.2.2.2⟩
      rw [gk k h3.1, hg' k h3.2]
    · dsimp only
      rw [gk _ (by decide), ht]
  · unfold dateOf
    dsimp only
    rw [hdate]

theorem bind_error {α β : Type} {x : Py α} {f : α → Py β} (h : ∀ a, x = .ok a → ∃ e, f a = .error e) : ∃ e, x.bind f = .error e := by
  cases x with
  | error e => exact ⟨e, rfl⟩
  | ok a => exact h a rfl

theorem addItems_keys : ∀ (es : List (Text × Item)) (d d' : List (Text × V)), es.foldlM addItem d = .ok d' → ∀ k, k ∉ es.map Prod.fst →
    getKw k d' = getKw k d
  | [], d, d', h, k, _ => by cases h; rfl
  | e :: es, d, d', h, k, hk => by
    rw [List.foldlM_cons] at h
    simp only [List.map_cons, List.mem_cons, not_or] at hk
    cases h1 : addItem d e with
    | error x => rw [h1] at h; cases h
    | ok d1 =>
      rw [h1] at h
      rw [addItems_keys es d1 d' h k hk.2]
      unfold addItem at h1
      split_ifs at h1
      · cases h1; rfl
      · cases h1; rfl
      · simp only [bind, Except.bind] at h1
        split at h1
        · cases h1
        · split_ifs at h1
          · split at h1
            · cases h1
              rw [getKw_setKw, if_neg hk.1]
            · cases h1; rfl
          · cases h1; rfl

theorem read_spoiled {utc : Utc} {a : Acq} (h : Spoiled a) : ∃ e, readAcquisition utc a = .error e := by
  unfold readAcquisition
  cases h with
  | dataset h =>
    exact ⟨_, by rw [loadImage, if_pos (by simp [h])]; rfl⟩
  | dims h =>
    refine bind_error fun d hd => ?_
    rw [loadImage] at hd
    split_ifs at hd
  | title h =>
    refine bind_error fun d _ => bind_error fun om _ => bind_error fun k _ => ?_
    exact ⟨.keyError, by rw [makeMetadata, h]; rfl⟩
  | time h =>
    refine bind_error fun d _ => ?_
    obtain ⟨e, he⟩ : ∃ e, originalMetadata a = .error e := by
      unfold originalMetadata
      refine bind_error fun d' _ => ?_
      rw [kw_none h]
      exact ⟨_, rfl⟩
    exact ⟨e, by rw [he]; rfl⟩
  | description h =>
    refine bind_error fun d _ => bind_error fun om ho => ?_
    have : getKw "ChannelDescription".toList om = none := by
      unfold originalMetadata at ho
      cases hd : a.physical.foldlM addItem [] with
      | error e => rw [hd] at ho; cases ho
      | ok d' =>
        rw [hd] at ho
        simp only [bind, Except.bind] at ho
        split at ho
        · cases ho
          rw [getKw_setKw, getKw_setKw, getKw_setKw, if_neg (by decide), if_neg (by decide), if_neg (by decide),
            addItems_keys _ _ _ hd]
          · rfl
          · intro hm
            obtain ⟨⟨k', i⟩, h1, rfl⟩ := List.mem_map.1 hm
            exact h i h1
        · cases ho
        · cases ho
    exact ⟨.keyError, by rw [guessKind, this]; rfl⟩

theorem acquisitions_ok {utc : Utc} {file : List Obj} {l : List Rec} (h : Holds file l) : List.Forall₂ (IsRead utc) l (acquisitions utc file) := by
  induction h with
  | nil => exact .nil
  | @other o _ _ h _ ih =>
    unfold acquisitions at ih ⊢
    rw [List.filterMap_cons_none]
    · exact ih
    · rcases h with h | h | h
      · simp [h]
      · rw [if_pos]
        have : isAcquisition o.name = false := by
          rw [isAcquisition, decide_eq_false_iff_not]
          intro e
          apply h
          rw [List.prefix_iff_eq_take]
          exact e.symm
        simp [this]
      · rw [h]; dsimp only; split_ifs <;> rfl
  | spoiled e h _ ih =>
    unfold acquisitions at ih ⊢
    rw [List.filterMap_cons_none]
    · exact ih
    · rw [e]
      dsimp only
      obtain ⟨x, hx⟩ := read_spoiled (utc := utc) h
      rw [hx]
      split_ifs <;> rfl
  | @take o _ _ _ g n e h _ ih =>
    obtain ⟨s, h1, h2⟩ := read_ok (utc := utc) h
    unfold acquisitions at ih ⊢
    rw [List.filterMap_cons_some (b := s)]
    · exact .cons h2 ih
    · rw [if_neg, e]
      · dsimp only
        rw [h1]
      · have : isAcquisition o.name = true := by
          rw [isAcquisition, decide_eq_true_eq]
          exact (List.prefix_iff_eq_take.1 n).symm
        simp [g, this]

end Verif.Delmic
