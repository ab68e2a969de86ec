import Verif.Lemmas.HspyFile
import Verif.Spec.HspyOld
/-! Property C131: metadata of old hspy files are found under their new names. -/
namespace Verif.Props.HspyOld
open Verif Verif.HierDict Verif.HspyFile Verif.HspyOld Verif.HspyOldSpec

theorem find_eq (k : Text) : ∀ d, find k d = lookup k d
  | [] => rfl
  | (k', v) :: rest => by simp only [find, lookup, find_eq k rest]

theorem find_put_same (k : Text) (v : Val) (d : Dict) : find k (putKey k v d) = some v := by
  rw [find_eq, lookup_putKey_same]
theorem find_put_ne {k n : Text} (h : n ≠ k) (v : Val) (d : Dict) :
    find n (putKey k v d) = find n d := by
  rw [find_eq, find_eq, lookup_putKey_ne _ _ _ h]
theorem find_del_same (k : Text) (d : Dict) : find k (delKey k d) = none := by
  rw [find_eq, lookup_delKey_same]
theorem find_del_ne {k n : Text} (h : n ≠ k) (d : Dict) : find n (delKey k d) = find n d := by
  rw [find_eq, find_eq, lookup_delKey_ne _ _ h]

theorem sectionOrNew_items {name : Text} {d s : Dict} (h : sectionOrNew name d = .ok s) :
    s = items (find name d) := by
  unfold sectionOrNew at h
  rw [find_eq]
  cases h1 : lookup name d with
  | none => rw [h1] at h; cases h; rfl
  | some v => rw [h1] at h; cases v <;> cases h <;> rfl

/-- What `moveInto` does. -/
theorem moveInto_spec {old sec new : Text} {d d' : Dict} (hne : old ≠ sec)
    (h : moveInto old sec new d = .ok d') :
    (∀ v, find old d = some v → find old d' = none ∧ find new (items (find sec d')) = some v ∧
      ∀ k, k ≠ new → find k (items (find sec d')) = find k (items (find sec d))) ∧
    (find old d = none → d' = d) ∧
    ∀ n, n ≠ old → n ≠ sec → find n d' = find n d := by
  unfold moveInto at h
  rw [← find_eq] at h
  cases h1 : find old d with
  | none =>
    rw [h1] at h
    cases h
    exact ⟨(fun v e => by cases e), fun _ => rfl, fun _ _ _ => rfl⟩
  | some v =>
    rw [h1] at h
    dsimp only at h
    cases h2 : sectionOrNew sec d with
    | error e => rw [h2] at h; cases h
    | ok s =>
      rw [h2] at h
      cases h
      have hs := sectionOrNew_items h2
      have hsec : find sec (delKey old (putKey sec (.dict (putKey new v s)) d)) =
          some (.dict (putKey new v s)) := by
        rw [find_del_ne (Ne.symm hne), find_put_same]
      refine ⟨?_, (fun e => by cases e), ?_⟩
      · intro w hw
        cases hw
        refine ⟨find_del_same _ _, ?_, ?_⟩
        · rw [hsec]; exact find_put_same _ _ _
        · intro k hk
          rw [hsec, ← hs]
          exact find_put_ne hk _ _
      · intro n hn1 hn2
        rw [find_del_ne hn1, find_put_ne hn2]

/-- What `moveAll` does when every key keeps its name. -/
theorem moveAll_spec (sec : Text) : ∀ (ks : List Text) (d d' : Dict), sec ∉ ks → ks.Nodup →
    moveAll sec (ks.map fun k => (k, k)) d = .ok d' →
    (∀ k ∈ ks, ∀ v, find k d = some v → find k d' = none ∧
      find k (items (find sec d')) = some v) ∧
    (∀ k, (k ∉ ks ∨ find k d = none) →
      find k (items (find sec d')) = find k (items (find sec d))) ∧
    ∀ n, n ∉ ks → n ≠ sec → find n d' = find n d
  | [], d, d', _, _, h => by
    cases h
    exact ⟨by simp, fun _ _ => rfl, fun _ _ _ => rfl⟩
  | k0 :: ks, d, d', hs, hnd, h => by
    simp only [List.mem_cons, not_or] at hs
    simp only [List.nodup_cons] at hnd
    simp only [List.map_cons, moveAll] at h
    cases h1 : moveInto k0 sec k0 d with
    | error e => rw [h1] at h; cases h
    | ok d1 =>
      rw [h1] at h
      obtain ⟨m1, m2, m3⟩ := moveInto_spec (Ne.symm hs.1) h1
      obtain ⟨a1, a2, a3⟩ := moveAll_spec sec ks d1 d' hs.2 hnd.2 h
      refine ⟨?_, ?_, ?_⟩
      · intro k hk v hv
        rcases List.mem_cons.1 hk with rfl | hk
        · obtain ⟨b1, b2, b3⟩ := m1 v hv
          refine ⟨?_, ?_⟩
          · rw [a3 k hnd.1 (Ne.symm hs.1), b1]
          · rw [a2 k (.inl hnd.1), b2]
        · have hne : k ≠ k0 := fun e => hnd.1 (e ▸ hk)
          have hks : k ≠ sec := fun e => hs.2 (e ▸ hk)
          exact a1 k hk v (by rw [m3 k hne hks, hv])
      · intro k hk
        have hfirst : find k (items (find sec d1)) = find k (items (find sec d)) := by
          by_cases hk0 : k = k0
          · subst hk0
            rcases hk with hk | hk
            · exact absurd List.mem_cons_self hk
            · rw [m2 hk]
          · cases h2 : find k0 d with
            | none => rw [m2 h2]
            | some v => exact (m1 v h2).2.2 k hk0
        rw [a2 k, hfirst]
        rcases hk with hk | hk
        · exact .inl fun h => hk (List.mem_cons_of_mem _ h)
        · by_cases hk0 : k = k0
          · subst hk0; exact .inl hnd.1
          · by_cases hks : k = sec
            · subst hks; exact .inl hs.2
            · exact .inr (by rw [m3 k hk0 hks, hk])
      · intro n hn1 hn2
        simp only [List.mem_cons, not_or] at hn1
        rw [a3 n hn1.2 hn2, m3 n hn1.1 hn2]

/-- What `inSection` does. -/
theorem inSection_spec {name : Text} {f : Dict → Py Dict} {d d' : Dict}
    (h : inSection name f d = .ok d') :
    ((find name d = none ∧ d' = d) ∨ ∃ s s', find name d = some (.dict s) ∧ f s = .ok s' ∧
      find name d' = some (.dict s')) ∧
    ∀ n, n ≠ name → find n d' = find n d := by
  unfold inSection at h
  rw [← find_eq] at h
  cases h1 : find name d with
  | none => rw [h1] at h; cases h; exact ⟨.inl ⟨rfl, rfl⟩, fun _ _ => rfl⟩
  | some v =>
    rw [h1] at h
    cases v with
    | dict s =>
      dsimp only at h
      cases h2 : f s with
      | error e => rw [h2] at h; cases h
      | ok s' =>
        rw [h2] at h
        cases h
        exact ⟨.inr ⟨s, s', rfl, h2, find_put_same _ _ _⟩, fun n hn => find_put_ne hn _ _⟩
    | _ => cases h

/-- Renaming a key. -/
theorem rename_spec (old new : Text) (hne : old ≠ new) (d : Dict) :
    (∀ v, find old d = some v → find new (rename old new d) = some v ∧
      find old (rename old new d) = none) ∧
    (find old d = none → rename old new d = d) ∧
    ∀ n, n ≠ old → n ≠ new → find n (rename old new d) = find n d := by
  unfold rename
  rw [← find_eq]
  cases h : find old d with
  | none => exact ⟨(fun v e => by cases e), fun _ => rfl, fun _ _ _ => rfl⟩
  | some v =>
    refine ⟨?_, (fun e => by cases e), ?_⟩
    · intro w hw
      cases hw
      exact ⟨by rw [find_del_ne (Ne.symm hne), find_put_same], find_del_same _ _⟩
    · intro n h1 h2
      rw [find_del_ne h1, find_put_ne h2]

theorem okBind {α β : Type} {x : Py α} {f : α → Py β} {y : β} (h : (x >>= f) = .ok y) :
    ∃ a, x = .ok a ∧ f a = .ok y := by
  cases x with
  | error e => cases h
  | ok a => exact ⟨a, rfl, h⟩

/-- **C131**: metadata of files of version 3.0 or later are returned as they are. -/
theorem C131_current (env : FileEnv) (version : List Nat) (g : Group) (md att : Dict)
    (hv : ∃ a b, version = [a, b] ∧ 3 ≤ a) : upgrade env version g md att = .ok (md, att) := by
  obtain ⟨a, b, rfl, ha⟩ := hv
  have h1 : ltVersion [a, b] [1, 1] = false := by
    simp [ltVersion, show ¬ a < 1 by omega, show a ≠ 1 by omega]
  have h2 : ltVersion [a, b] [1, 2] = false := by
    simp [ltVersion, show ¬ a < 1 by omega, show a ≠ 1 by omega]
  have h3 : ltVersion [a, b] [3, 0] = false := by
    simp [ltVersion, show ¬ a < 3 by omega]
  simp [upgrade, stage11, stage12, stage30, h1, h2, h3, bind, Except.bind]

/-- **C131**: files before 1.1: the signal type and the name are found as `Signal.signal_type` and
`General.title`; everything else stays. -/
theorem C131_before_1_1 (env : FileEnv) (g : Group) (md att md' att' : Dict)
    (h : upgrade11 env g md att = .ok (md', att')) :
    (∀ v, atPath ["signal".toList] md = some v →
      atPath ["Signal".toList, "signal_type".toList] md' = some v) ∧
    (∀ v, atPath ["name".toList] md = some v →
      atPath ["General".toList, "title".toList] md' = some v) ∧
    (find "signal".toList md' = none ∧ find "name".toList md' = none) ∧
    ∀ n, n ∉ ["signal".toList, "Signal".toList, "name".toList, "General".toList] →
      find n md' = find n md := by
  unfold upgrade11 at h
  obtain ⟨a1, _, h⟩ := okBind h
  obtain ⟨a2, _, h⟩ := okBind h
  obtain ⟨m1, e1, h⟩ := okBind h
  obtain ⟨m2, e2, h⟩ := okBind h
  cases h
  obtain ⟨p1, p2, p3⟩ := moveInto_spec (by decide) e1
  obtain ⟨q1, q2, q3⟩ := moveInto_spec (by decide) e2
  refine ⟨?_, ?_, ⟨?_, ?_⟩, ?_⟩
  · intro v hv
    have h1 := (p1 v hv).2.1
    show find (t "signal_type") (items (find (t "Signal") md')) = some v
    rw [q3 (t "Signal") (by decide) (by decide)]
    exact h1
  · intro v hv
    exact (q1 v (by rw [p3 _ (by decide) (by decide)]; exact hv)).2.1
  · show find (t "signal") md' = none
    rw [q3 _ (by decide) (by decide)]
    cases h2 : find (t "signal") md with
    | none => rw [p2 h2]; exact h2
    | some v => exact (p1 v h2).1
  · show find (t "name") md' = none
    cases h2 : find (t "name") m1 with
    | none => rw [q2 h2]; exact h2
    | some v => exact (q1 v h2).1
  · intro n hn
    simp only [List.mem_cons, List.not_mem_nil, or_false, not_or] at hn
    rw [q3 n hn.2.2.1 hn.2.2.2, p3 n hn.1 hn.2.1]

/-- What happens to a microscope: its section moves under `Acquisition_instrument`. -/
theorem instrument_spec {name : Text} (hne : name ≠ t "Acquisition_instrument")
    {f : Dict → Py Dict} {md md' : Dict} (h : instrument name f md = .ok md') :
    (∀ s, find name md = some (.dict s) → ∃ s', f s = .ok s' ∧
      atPath [t "Acquisition_instrument", name] md' = some (.dict s') ∧ find name md' = none) ∧
    (find name md = none → md' = md) ∧
    (∀ k, k ≠ name → find k (items (find (t "Acquisition_instrument") md')) =
      find k (items (find (t "Acquisition_instrument") md))) ∧
    ∀ n, n ≠ name → n ≠ t "Acquisition_instrument" → find n md' = find n md := by
  unfold instrument at h
  cases h0 : hasKey name md with
  | false =>
    have h1 : find name md = none := by
      rw [find_eq]
      simpa [hasKey] using h0
    rw [h0] at h
    simp only [Bool.false_eq_true, if_false] at h
    cases h
    exact ⟨(fun s hs => by rw [h1] at hs; cases hs), fun _ => rfl, fun _ _ => rfl, fun _ _ _ => rfl⟩
  | true =>
    rw [h0, if_pos rfl] at h
    obtain ⟨v, hv⟩ : ∃ v, find name md = some v := by
      rw [find_eq]
      exact Option.isSome_iff_exists.1 h0
    cases h1 : moveInto name (t "Acquisition_instrument") name md with
    | error e => rw [h1] at h; cases h
    | ok m1 =>
      rw [h1] at h
      dsimp only at h
      obtain ⟨p1, p2, p3⟩ := moveInto_spec hne h1
      obtain ⟨b1, b2, b3⟩ := p1 v hv
      obtain ⟨c1, c2⟩ := inSection_spec h
      rcases c1 with ⟨c3, _⟩ | ⟨s, s', d1, d2, d3⟩
      · rw [c3] at b2; cases b2
      · obtain ⟨f1, f2⟩ := inSection_spec d2
        have hb2 : find name s = some v := by rw [d1] at b2; exact b2
        refine ⟨?_, ?_, ?_, ?_⟩
        · intro w hw
          rw [hv] at hw
          cases hw
          rcases f1 with ⟨f3, _⟩ | ⟨u, u', g1, g2, g3⟩
          · rw [f3] at hb2; cases hb2
          · rw [hb2] at g1
            cases g1
            refine ⟨u', g2, ?_, ?_⟩
            · show find name (items (find (t "Acquisition_instrument") md')) = _
              rw [d3]; exact g3
            · rw [c2 name hne, b1]
        · intro hn; rw [hv] at hn; cases hn
        · intro k hk
          rw [d3]
          show find k s' = _
          rw [f2 k hk, ← b3 k hk, d1]
          rfl
        · intro n hn1 hn2
          rw [c2 n hn2, p3 n hn1 hn2]

/-- **C131**: files before 1.2: title, date, time and file name are found under `General`, the kind
of signal under `Signal`, the private section as `_HyperSpy` with its two items renamed, the
variance as `Noise_properties.Variance_linear_model`, the X-ray lines as `Sample.xray_lines`, and
a microscope under `Acquisition_instrument` (its own items are the subject of `C131_microscope`).
Keys that are not concerned keep their values. -/
theorem C131_before_1_2 (md md' : Dict) (h : upgrade12 md = .ok md') :
    (∀ k ∈ ["title".toList, "date".toList, "time".toList, "original_filename".toList], ∀ v,
      find k md = some v → atPath ["General".toList, k] md' = some v ∧ find k md' = none) ∧
    (∀ k ∈ ["record_by".toList, "signal_origin".toList, "signal_type".toList], ∀ v,
      find k md = some v → atPath ["Signal".toList, k] md' = some v ∧ find k md' = none) ∧
    (∀ k ∈ ["Variance_estimation".toList, "_internal_parameters".toList], find k md' = none) ∧
    (atPath ["Sample".toList, "Xray_lines".toList] md' = none) ∧
    (∀ k ∈ ["TEM".toList, "SEM".toList], ∀ s, find k md = some (.dict s) → find k md' = none) ∧
    (∀ v, find "Variance_estimation".toList md = some v →
      atPath ["Noise_properties".toList, "Variance_linear_model".toList] md' = some v) ∧
    (∀ v, atPath ["Sample".toList, "Xray_lines".toList] md = some v →
      atPath ["Sample".toList, "xray_lines".toList] md' = some v) ∧
    (∀ s, find "_internal_parameters".toList md = some (.dict s) →
      (∀ v, find "stacking_history".toList s = some v →
        atPath ["_HyperSpy".toList, "Stacking_history".toList] md' = some v) ∧
      (∀ v, find "folding".toList s = some v →
        atPath ["_HyperSpy".toList, "Folding".toList] md' = some v) ∧
      ∀ k, k ∉ ["stacking_history".toList, "Stacking_history".toList, "folding".toList,
        "Folding".toList] → atPath ["_HyperSpy".toList, k] md' = find k s) ∧
    (∀ s, find "TEM".toList md = some (.dict s) → ∃ s', temSection s = .ok s' ∧
      atPath ["Acquisition_instrument".toList, "TEM".toList] md' = some (.dict s')) ∧
    (∀ s, find "SEM".toList md = some (.dict s) →
      ∃ s', moveInto "EDS".toList "Detector".toList "EDS".toList s = .ok s' ∧
        atPath ["Acquisition_instrument".toList, "SEM".toList] md' = some (.dict s')) ∧
    (∀ n, n ∉ ["title".toList, "date".toList, "time".toList, "original_filename".toList,
        "General".toList, "record_by".toList, "signal_origin".toList, "signal_type".toList,
        "Signal".toList, "Variance_estimation".toList, "Noise_properties".toList, "Sample".toList,
        "_internal_parameters".toList, "_HyperSpy".toList, "TEM".toList, "SEM".toList,
        "Acquisition_instrument".toList] → find n md' = find n md) ∧
    (∀ k, k ∉ ["title".toList, "date".toList, "time".toList, "original_filename".toList] ∨
      find k md = none → atPath ["General".toList, k] md' = atPath ["General".toList, k] md) ∧
    (∀ k, k ∉ ["record_by".toList, "signal_origin".toList, "signal_type".toList] ∨
      find k md = none → atPath ["Signal".toList, k] md' = atPath ["Signal".toList, k] md) ∧
    (∀ k, k ∉ ["Xray_lines".toList, "xray_lines".toList] →
      atPath ["Sample".toList, k] md' = atPath ["Sample".toList, k] md) ∧
    (∀ k, k ≠ "Variance_linear_model".toList → atPath ["Noise_properties".toList, k] md' =
      atPath ["Noise_properties".toList, k] md) ∧
    ∀ k, k ∉ ["TEM".toList, "SEM".toList] → atPath ["Acquisition_instrument".toList, k] md' =
      atPath ["Acquisition_instrument".toList, k] md := by
  unfold upgrade12 at h
  obtain ⟨m1, e1, h⟩ := okBind h
  obtain ⟨m2, e2, h⟩ := okBind h
  obtain ⟨m3, e3, h⟩ := okBind h
  obtain ⟨m4, e4, h⟩ := okBind h
  obtain ⟨m5, e5, h⟩ := okBind h
  obtain ⟨m6, e6, e7⟩ := okBind h
  have hint : (∀ s, find (t "_internal_parameters") md = some (.dict s) →
        find (t "_HyperSpy") m1 = some (.dict (rename (t "folding") (t "Folding")
          (rename (t "stacking_history") (t "Stacking_history") s)))) ∧
      find (t "_internal_parameters") m1 = none ∧
      ∀ n, n ≠ t "_internal_parameters" → n ≠ t "_HyperSpy" → find n m1 = find n md := by
    unfold internalParameters at e1
    rw [← find_eq] at e1
    cases h1 : find (t "_internal_parameters") md with
    | none => rw [h1] at e1; cases e1; exact ⟨(fun s e => by cases e), h1, fun _ _ _ => rfl⟩
    | some v =>
      rw [h1] at e1
      cases v with
      | dict s =>
        cases e1
        refine ⟨?_, find_del_same _ _, ?_⟩
        · intro s' hs
          cases hs
          rw [find_del_ne (by decide), find_put_same]
        · intro n hn1 hn2
          rw [find_del_ne hn1, find_put_ne hn2]
      | _ => cases e1
  obtain ⟨v1, v2, v3⟩ := moveInto_spec (by decide) e2
  obtain ⟨t1, t2, t3, t4⟩ := instrument_spec (by decide) e3
  obtain ⟨s1, s2, s3, s4⟩ := instrument_spec (by decide) e4
  obtain ⟨x1, x2⟩ := inSection_spec e5
  obtain ⟨g1, g2, g3⟩ := moveAll_spec nGeneral [nTitle, t "date", t "time", t "original_filename"]
    m5 m6 (by decide) (by decide) e6
  obtain ⟨k1, k2, k3⟩ := moveAll_spec (t "Signal")
    [t "record_by", t "signal_origin", t "signal_type"] m6 md' (by decide) (by decide) e7
  -- the keys that the first five steps leave alone
  have keep5 : ∀ n, n ∉ [t "_internal_parameters", t "_HyperSpy", t "Variance_estimation",
      t "Noise_properties", t "TEM", t "SEM", t "Acquisition_instrument", t "Sample"] →
      find n m5 = find n md := by
    intro n hn
    simp only [List.mem_cons, List.not_mem_nil, or_false, not_or] at hn
    obtain ⟨n1, n2, n3, n4, n5, n6, n7, n8⟩ := hn
    rw [x2 n n8, s4 n n6 n7, t4 n n5 n7, v3 n n3 n4, hint.2.2 n n1 n2]
  have late : ∀ n, n ∉ [nTitle, t "date", t "time", t "original_filename", nGeneral,
      t "record_by", t "signal_origin", t "signal_type", t "Signal"] → find n md' = find n m5 := by
    intro n hn
    simp only [List.mem_cons, List.not_mem_nil, or_false, not_or] at hn
    obtain ⟨n1, n2, n3, n4, n5, n6, n7, n8, n9⟩ := hn
    rw [k3 n (by simp [n6, n7, n8]) n9, g3 n (by simp [n1, n2, n3, n4]) n5]
  refine ⟨?_, ?_, ?_, ?_, ?_, ?_, ?_, ?_, ?_, ?_, ?_, ?_, ?_, ?_, ?_, ?_⟩
  · intro k hk v hv
    have q : ∀ k ∈ [nTitle, t "date", t "time", t "original_filename"],
        k ∉ [t "_internal_parameters", t "_HyperSpy", t "Variance_estimation",
          t "Noise_properties", t "TEM", t "SEM", t "Acquisition_instrument", t "Sample"] ∧
        k ∉ [t "record_by", t "signal_origin", t "signal_type"] ∧ k ≠ t "Signal" := by decide
    obtain ⟨q1, q2, q3⟩ := q k hk
    have hk5 : find k m5 = some v := by
      rw [keep5 k q1, hv]
    obtain ⟨a1, a2⟩ := g1 k hk v hk5
    refine ⟨?_, ?_⟩
    · show find k (items (find nGeneral md')) = some v
      rw [k3 nGeneral (by decide) (by decide), a2]
    · rw [k3 k q2 q3, a1]
  · intro k hk v hv
    have q : ∀ k ∈ [t "record_by", t "signal_origin", t "signal_type"],
        k ∉ [t "_internal_parameters", t "_HyperSpy", t "Variance_estimation",
          t "Noise_properties", t "TEM", t "SEM", t "Acquisition_instrument", t "Sample"] ∧
        k ∉ [nTitle, t "date", t "time", t "original_filename"] ∧ k ≠ nGeneral := by decide
    obtain ⟨q1, q2, q3⟩ := q k hk
    have hk6 : find k m6 = some v := by
      rw [g3 k q2 q3, keep5 k q1, hv]
    obtain ⟨a1, a2⟩ := k1 k hk v hk6
    exact ⟨a2, a1⟩
  · intro k hk
    simp only [List.mem_cons, List.not_mem_nil, or_false] at hk
    rcases hk with rfl | rfl
    · show find (t "Variance_estimation") md' = none
      rw [late _ (by decide), x2 _ (by decide), s4 _ (by decide) (by decide),
        t4 _ (by decide) (by decide)]
      cases h2 : find (t "Variance_estimation") m1 with
      | none => rw [v2 h2]; exact h2
      | some v => exact (v1 v h2).1
    · show find (t "_internal_parameters") md' = none
      rw [late _ (by decide), x2 _ (by decide), s4 _ (by decide) (by decide),
        t4 _ (by decide) (by decide), v3 _ (by decide) (by decide)]
      exact hint.2.1
  · show find (t "Xray_lines") (items (find (t "Sample") md')) = none
    rw [late _ (by decide)]
    rcases x1 with ⟨x3, x4⟩ | ⟨s, s', y1, y2, y3⟩
    · rw [x4, x3]; rfl
    · cases y2
      rw [y3]
      show find _ (rename _ _ s) = none
      obtain ⟨r1, r2, _⟩ := rename_spec (t "Xray_lines") (t "xray_lines") (by decide) s
      cases h2 : find (t "Xray_lines") s with
      | none => rw [r2 h2]; exact h2
      | some v => exact (r1 v h2).2
  · intro k hk s hs
    simp only [List.mem_cons, List.not_mem_nil, or_false] at hk
    rcases hk with rfl | rfl
    · have hs' : find (t "TEM") md = some (.dict s) := hs
      obtain ⟨_, _, _, a3⟩ := t1 s (by
        rw [v3 _ (by decide) (by decide), hint.2.2 _ (by decide) (by decide)]; exact hs')
      show find (t "TEM") md' = none
      rw [late _ (by decide), x2 _ (by decide), s4 _ (by decide) (by decide)]
      exact a3
    · have hs' : find (t "SEM") md = some (.dict s) := hs
      obtain ⟨_, _, _, a3⟩ := s1 s (by
        rw [t4 _ (by decide) (by decide), v3 _ (by decide) (by decide),
          hint.2.2 _ (by decide) (by decide)]; exact hs')
      show find (t "SEM") md' = none
      rw [late _ (by decide), x2 _ (by decide)]
      exact a3
  · intro v hv
    have h1 : find (t "Variance_estimation") m1 = some v := by
      rw [hint.2.2 _ (by decide) (by decide)]; exact hv
    have h2 := (v1 v h1).2.1
    show find (t "Variance_linear_model") (items (find (t "Noise_properties") md')) = some v
    rw [late _ (by decide), x2 _ (by decide), s4 _ (by decide) (by decide),
      t4 _ (by decide) (by decide), h2]
  · intro v hv
    have hv' : find (t "Xray_lines") (items (find (t "Sample") md)) = some v := hv
    have h4 : find (t "Sample") m4 = find (t "Sample") md := by
      rw [s4 _ (by decide) (by decide), t4 _ (by decide) (by decide), v3 _ (by decide) (by decide),
        hint.2.2 _ (by decide) (by decide)]
    show find (t "xray_lines") (items (find (t "Sample") md')) = some v
    rw [late _ (by decide)]
    rcases x1 with ⟨x3, _⟩ | ⟨s, s', y1, y2, y3⟩
    · rw [h4] at x3; rw [x3] at hv'; cases hv'
    · cases y2
      rw [y3]
      rw [h4] at y1
      rw [y1] at hv'
      exact ((rename_spec (t "Xray_lines") (t "xray_lines") (by decide) s).1 v hv').1
  · intro s hs
    have h1 : find (t "_HyperSpy") md' = some (.dict (rename (t "folding") (t "Folding")
          (rename (t "stacking_history") (t "Stacking_history") s))) := by
      rw [late _ (by decide), x2 _ (by decide), s4 _ (by decide) (by decide),
        t4 _ (by decide) (by decide), v3 _ (by decide) (by decide), hint.1 s hs]
    obtain ⟨r1, _, r3⟩ := rename_spec (t "stacking_history") (t "Stacking_history") (by decide) s
    obtain ⟨u1, _, u3⟩ := rename_spec (t "folding") (t "Folding") (by decide)
      (rename (t "stacking_history") (t "Stacking_history") s)
    refine ⟨?_, ?_, ?_⟩
    · intro v hv
      show find (t "Stacking_history") (items (find (t "_HyperSpy") md')) = some v
      rw [h1]
      show find _ (rename _ _ _) = _
      rw [u3 _ (by decide) (by decide)]
      exact (r1 v hv).1
    · intro v hv
      show find (t "Folding") (items (find (t "_HyperSpy") md')) = some v
      rw [h1]
      exact (u1 v (by rw [r3 _ (by decide) (by decide)]; exact hv)).1
    · intro k hk
      simp only [List.mem_cons, List.not_mem_nil, or_false, not_or] at hk
      obtain ⟨n1, n2, n3, n4⟩ := hk
      show find k (items (find (t "_HyperSpy") md')) = _
      rw [h1]
      show find _ (rename _ _ _) = _
      rw [u3 k n3 n4, r3 k n1 n2]
  · intro s hs
    obtain ⟨s', a1, a2, _⟩ := t1 s (by
      rw [v3 _ (by decide) (by decide), hint.2.2 _ (by decide) (by decide)]; exact hs)
    refine ⟨s', a1, ?_⟩
    show find (t "TEM") (items (find (t "Acquisition_instrument") md')) = _
    rw [late _ (by decide), x2 _ (by decide), s3 _ (by decide)]
    exact a2
  · intro s hs
    obtain ⟨s', a1, a2, _⟩ := s1 s (by
      rw [t4 _ (by decide) (by decide), v3 _ (by decide) (by decide),
        hint.2.2 _ (by decide) (by decide)]; exact hs)
    refine ⟨s', a1, ?_⟩
    show find (t "SEM") (items (find (t "Acquisition_instrument") md')) = _
    rw [late _ (by decide), x2 _ (by decide)]
    exact a2
  · intro n hn
    simp only [List.mem_cons, List.not_mem_nil, or_false, not_or] at hn
    obtain ⟨n1, n2, n3, n4, n5, n6, n7, n8, n9, n10, n11, n12, n13, n14, n15, n16, n17⟩ := hn
    rw [late n ?_, keep5 n ?_]
    · simp only [List.mem_cons, List.not_mem_nil, or_false, not_or]
      exact ⟨n13, n14, n10, n11, n15, n16, n17, n12⟩
    · simp only [List.mem_cons, List.not_mem_nil, or_false, not_or]
      exact ⟨n1, n2, n3, n4, n5, n6, n7, n8, n9⟩
  · intro k hk
    show find k (items (find nGeneral md')) = find k (items (find nGeneral md))
    rw [k3 nGeneral (by decide) (by decide), g2 k, keep5 nGeneral (by decide)]
    by_cases hm : k ∈ [nTitle, t "date", t "time", t "original_filename"]
    · have q : ∀ k ∈ [nTitle, t "date", t "time", t "original_filename"],
        k ∉ [t "_internal_parameters", t "_HyperSpy", t "Variance_estimation",
          t "Noise_properties", t "TEM", t "SEM", t "Acquisition_instrument", t "Sample"] := by decide
      rcases hk with hk | hk
      · exact .inl hk
      · exact .inr (by rw [keep5 k (q k hm), hk])
    · exact .inl hm
  · intro k hk
    show find k (items (find (t "Signal") md')) = find k (items (find (t "Signal") md))
    rw [k2 k, g3 (t "Signal") (by decide) (by decide), keep5 (t "Signal") (by decide)]
    by_cases hm : k ∈ [t "record_by", t "signal_origin", t "signal_type"]
    · have q : ∀ k ∈ [t "record_by", t "signal_origin", t "signal_type"],
        k ∉ [t "_internal_parameters", t "_HyperSpy", t "Variance_estimation",
          t "Noise_properties", t "TEM", t "SEM", t "Acquisition_instrument", t "Sample"] ∧
        k ∉ [nTitle, t "date", t "time", t "original_filename"] ∧ k ≠ nGeneral := by decide
      obtain ⟨q1, q2, q3⟩ := q k hm
      rcases hk with hk | hk
      · exact .inl hk
      · exact .inr (by rw [g3 k q2 q3, keep5 k q1, hk])
    · exact .inl hm
  · intro k hk
    simp only [List.mem_cons, List.not_mem_nil, or_false, not_or] at hk
    have h4 : find (t "Sample") m4 = find (t "Sample") md := by
      rw [s4 _ (by decide) (by decide), t4 _ (by decide) (by decide), v3 _ (by decide) (by decide),
        hint.2.2 _ (by decide) (by decide)]
    show find k (items (find (t "Sample") md')) = find k (items (find (t "Sample") md))
    rw [late _ (by decide)]
    rcases x1 with ⟨x3, x4⟩ | ⟨s, s', y1, y2, y3⟩
    · rw [x4, h4]
    · cases y2
      rw [y3]
      rw [h4] at y1
      rw [y1]
      exact (rename_spec (t "Xray_lines") (t "xray_lines") (by decide) s).2.2 k hk.1 hk.2
  · intro k hk
    show find k (items (find (t "Noise_properties") md')) =
      find k (items (find (t "Noise_properties") md))
    rw [late _ (by decide), x2 _ (by decide), s4 _ (by decide) (by decide),
      t4 _ (by decide) (by decide)]
    have hm1 : find (t "Noise_properties") m1 = find (t "Noise_properties") md :=
      hint.2.2 _ (by decide) (by decide)
    cases h2 : find (t "Variance_estimation") m1 with
    | none => rw [v2 h2, hm1]
    | some v => rw [(v1 v h2).2.2 k hk, hm1]
  · intro k hk
    simp only [List.mem_cons, List.not_mem_nil, or_false, not_or] at hk
    show find k (items (find (t "Acquisition_instrument") md')) =
      find k (items (find (t "Acquisition_instrument") md))
    rw [late _ (by decide), x2 _ (by decide), s3 k hk.2, t3 k hk.1, v3 _ (by decide) (by decide),
      hint.2.2 _ (by decide) (by decide)]

theorem hasKey_find (k : Text) (d : Dict) : hasKey k d = (find k d).isSome := by
  rw [find_eq]; rfl

/-- **C131**: the section of a transmission microscope, files before 1.2: settings of the EELS
detector (those stored beside it as well) are found under `Detector`, those of the EDS detector
under `Detector.EDS`; other settings stay where they are. -/
theorem C131_microscope (s s' : Dict) (h : temSection s = .ok s') :
    (∀ v, find "EDS".toList s = some v → atPath ["Detector".toList, "EDS".toList] s' = some v) ∧
    (find "EDS".toList s' = none ∧ find "EELS".toList s' = none) ∧
    (∀ e, find "EELS".toList s = some (.dict e) →
      (∀ k ∈ ["dwell_time".toList, "dwell_time_units".toList, "exposure".toList,
        "exposure_units".toList], ∀ v, find k s = some v →
          atPath ["Detector".toList, k] s' = some v ∧ find k s' = none) ∧
      (∀ k, k ∉ ["dwell_time".toList, "dwell_time_units".toList, "exposure".toList,
        "exposure_units".toList, "EDS".toList] → atPath ["Detector".toList, k] s' = find k e)) ∧
    (find "EELS".toList s = none → ∀ k, k ≠ "EDS".toList →
      (k ≠ "Detector".toList → find k s' = find k s) ∧
      atPath ["Detector".toList, k] s' = atPath ["Detector".toList, k] s) ∧
    ∀ n, n ∉ ["dwell_time".toList, "dwell_time_units".toList, "exposure".toList,
        "exposure_units".toList, "EELS".toList, "EDS".toList, "Detector".toList] →
      find n s' = find n s := by
  unfold temSection at h
  cases h1 : eels s with
  | error e => rw [h1] at h; cases h
  | ok s1 =>
    rw [h1] at h
    dsimp only at h
    obtain ⟨p1, p2, p3⟩ := moveInto_spec (by decide) h
    unfold eels at h1
    have heds : find (t "EDS") s' = none := by
      cases h2 : find (t "EDS") s1 with
      | none => rw [p2 h2]; exact h2
      | some v => exact (p1 v h2).1
    -- the detector section changes only by the item `EDS`
    have hdet : ∀ k, k ≠ t "EDS" →
        find k (items (find (t "Detector") s')) = find k (items (find (t "Detector") s1)) := by
      intro k hk
      cases h2 : find (t "EDS") s1 with
      | none => rw [p2 h2]
      | some v => exact (p1 v h2).2.2 k hk
    cases h3 : find (t "EELS") s with
    | none =>
      have h3' : find "EELS".toList s = none := h3
      have : s1 = s := by
        have e0 : hasKey (t "EELS") s = false := by rw [hasKey_find, h3]; rfl
        rw [e0] at h1
        simp only [Bool.false_eq_true, if_false] at h1
        cases h1; rfl
      subst this
      refine ⟨fun v hv => (p1 v hv).2.1, ⟨heds, ?_⟩, ?_, ?_, ?_⟩
      · show find (t "EELS") s' = none
        rw [p3 _ (by decide) (by decide)]; exact h3
      · intro e he; rw [h3'] at he; cases he
      · intro _ k hk
        exact ⟨fun hk2 => p3 k hk hk2, hdet k hk⟩
      · intro n hn
        simp only [List.mem_cons, List.not_mem_nil, or_false, not_or] at hn
        exact p3 n hn.2.2.2.2.2.1 hn.2.2.2.2.2.2
    | some w =>
      have e0 : hasKey (t "EELS") s = true := by rw [hasKey_find, h3]; rfl
      rw [e0, if_pos rfl] at h1
      cases h4 : moveAll (t "EELS") [(t "dwell_time", t "dwell_time"),
        (t "dwell_time_units", t "dwell_time_units"), (t "exposure", t "exposure"),
        (t "exposure_units", t "exposure_units")] s with
      | error e => rw [h4] at h1; cases h1
      | ok s2 =>
        rw [h4] at h1
        dsimp only at h1
        obtain ⟨a1, a2, a3⟩ := moveAll_spec (t "EELS") [t "dwell_time", t "dwell_time_units",
          t "exposure", t "exposure_units"] s s2 (by decide) (by decide) h4
        rw [← find_eq] at h1
        cases h5 : find (t "EELS") s2 with
        | none => rw [h5] at h1; cases h1
        | some v =>
          rw [h5] at h1
          cases h1
          have hd1 : find (t "Detector") (delKey (t "EELS") (putKey (t "Detector") v s2)) =
              some v := by rw [find_del_ne (by decide), find_put_same]
          rw [hd1] at hdet
          rw [h5] at a1 a2
          have hkeep : ∀ n, n ≠ t "EELS" → n ≠ t "Detector" →
              find n (delKey (t "EELS") (putKey (t "Detector") v s2)) = find n s2 := by
            intro n n1 n2
            rw [find_del_ne n1, find_put_ne n2]
          have h3' : find "EELS".toList s = some w := h3
          refine ⟨?_, ⟨heds, ?_⟩, ?_, (fun e => by rw [h3'] at e; cases e), ?_⟩
          · intro u hu
            exact (p1 u (by
              rw [hkeep _ (by decide) (by decide), a3 _ (by decide) (by decide)]; exact hu)).2.1
          · show find (t "EELS") s' = none
            rw [p3 _ (by decide) (by decide)]; exact find_del_same _ _
          · intro e he
            rw [h3'] at he
            cases he
            refine ⟨?_, ?_⟩
            · intro k hk u hu
              have q : ∀ k ∈ [t "dwell_time", t "dwell_time_units", t "exposure",
                  t "exposure_units"], k ≠ t "EDS" ∧ k ≠ t "Detector" ∧ k ≠ t "EELS" := by decide
              obtain ⟨q1, q2, q3⟩ := q k hk
              obtain ⟨b1, b2⟩ := a1 k hk u hu
              refine ⟨?_, ?_⟩
              · exact (hdet k q1).trans b2
              · rw [p3 k q1 q2, hkeep k q3 q2, b1]
            · intro k hk
              simp only [List.mem_cons, List.not_mem_nil, or_false, not_or] at hk
              obtain ⟨n1, n2, n3, n4, n5⟩ := hk
              refine (hdet k n5).trans ?_
              rw [a2 k (.inl (by
                simp only [List.mem_cons, List.not_mem_nil, or_false, not_or]
                exact ⟨n1, n2, n3, n4⟩)), h3]
              rfl
          · intro n hn
            simp only [List.mem_cons, List.not_mem_nil, or_false, not_or] at hn
            obtain ⟨n1, n2, n3, n4, n5, n6, n7⟩ := hn
            rw [p3 n n6 n7, hkeep n n5 n7, a3 n (by
              simp only [List.mem_cons, List.not_mem_nil, or_false, not_or]
              exact ⟨n1, n2, n3, n4⟩) n5]

theorem tilt_spec (s : Dict) :
    (∀ v, find (t "tilt_stage") s = some v →
      atPath [t "Stage", t "tilt_alpha"] (tilt s) = some v ∧ find (t "tilt_stage") (tilt s) = none) ∧
    (find (t "tilt_stage") s = none → tilt s = s) ∧
    ∀ n, n ≠ t "tilt_stage" → n ≠ t "Stage" → find n (tilt s) = find n s := by
  unfold tilt
  rw [← find_eq]
  cases h : find (t "tilt_stage") s with
  | none => exact ⟨(fun v e => by cases e), fun _ => rfl, fun _ _ _ => rfl⟩
  | some v =>
    refine ⟨?_, (fun e => by cases e), ?_⟩
    · intro w hw
      cases hw
      refine ⟨?_, find_del_same _ _⟩
      show find (t "tilt_alpha") (items (find (t "Stage") (delKey _ (putKey _ _ _)))) = _
      rw [find_del_ne (by decide), find_put_same]
      rfl
    · intro n h1 h2
      rw [find_del_ne h1, find_put_ne h2]

/-- Moving one key to `Detector.Camera.exposure`. -/
theorem camera_one {k : Text} (hk : k ≠ t "Detector") {s det : Dict} (v : Val)
    (hd : det = items (find (t "Detector") s)) (s' : Dict)
    (hs : s' = delKey k (putKey (t "Detector")
      (.dict (putKey (t "Camera") (.dict [(t "exposure", v)]) det)) s)) :
    atPath [t "Detector", t "Camera", t "exposure"] s' = some v ∧ find k s' = none ∧
    (∀ n, n ≠ t "Camera" →
      find n (items (find (t "Detector") s')) = find n (items (find (t "Detector") s))) ∧
    ∀ n, n ≠ k → n ≠ t "Detector" → find n s' = find n s := by
  subst hs
  have h1 : find (t "Detector") (delKey k (putKey (t "Detector")
      (.dict (putKey (t "Camera") (.dict [(t "exposure", v)]) det)) s)) =
      some (.dict (putKey (t "Camera") (.dict [(t "exposure", v)]) det)) := by
    rw [find_del_ne (Ne.symm hk), find_put_same]
  refine ⟨?_, find_del_same _ _, ?_, ?_⟩
  · show find (t "exposure") (items (find (t "Camera") (items (find (t "Detector") _)))) = _
    rw [h1]
    show find (t "exposure") (items (find (t "Camera") (putKey _ _ _))) = _
    rw [find_put_same]
    rfl
  · intro n hn
    rw [h1, ← hd]
    exact find_put_ne hn _ _
  · intro n n1 n2
    rw [find_del_ne n1, find_put_ne n2]

theorem camera_spec {s s' : Dict} (h : camera s = .ok s') :
    (∀ v, find (t "exposure_time") s = some v →
      atPath [t "Detector", t "Camera", t "exposure"] s' = some v ∧
      find (t "exposure_time") s' = none) ∧
    (find (t "exposure_time") s = none → ∀ v, find (t "exposure") s = some v →
      atPath [t "Detector", t "Camera", t "exposure"] s' = some v ∧
      find (t "exposure") s' = none) ∧
    (find (t "exposure_time") s = none → find (t "exposure") s = none → s' = s) ∧
    (∀ n, n ≠ t "Camera" →
      find n (items (find (t "Detector") s')) = find n (items (find (t "Detector") s))) ∧
    ∀ n, n ∉ [t "exposure_time", t "exposure", t "Detector"] → find n s' = find n s := by
  unfold camera at h
  dsimp only at h
  simp only [hasKey_find, ← find_eq] at h
  cases h1 : find (t "exposure_time") s with
  | some v =>
    simp only [h1, Option.isSome_some, if_true] at h
    cases h2 : sectionOrNew (t "Detector") s with
    | error e => rw [h2] at h; cases h
    | ok det =>
      rw [h2] at h
      cases h
      obtain ⟨c1, c2, c3, c4⟩ := camera_one (k := t "exposure_time") (by decide) v
        (sectionOrNew_items h2) _ rfl
      refine ⟨?_, (fun e => by cases e), (fun e => by cases e), c3, ?_⟩
      · intro w hw; cases hw; exact ⟨c1, c2⟩
      · intro n hn
        simp only [List.mem_cons, List.not_mem_nil, or_false, not_or] at hn
        exact c4 n hn.1 hn.2.2
  | none =>
    simp only [h1, Option.isSome_none, Bool.false_eq_true, if_false] at h
    cases h3 : find (t "exposure") s with
    | some v =>
      simp only [h3, Option.isSome_some, if_true] at h
      cases h2 : sectionOrNew (t "Detector") s with
      | error e => rw [h2] at h; cases h
      | ok det =>
        rw [h2] at h
        cases h
        obtain ⟨c1, c2, c3, c4⟩ := camera_one (k := t "exposure") (by decide) v
          (sectionOrNew_items h2) _ rfl
        refine ⟨(fun w e => by cases e), ?_, (fun _ e => by cases e), c3, ?_⟩
        · intro _ w hw; cases hw; exact ⟨c1, c2⟩
        · intro n hn
          simp only [List.mem_cons, List.not_mem_nil, or_false, not_or] at hn
          exact c4 n hn.2.1 hn.2.2
    | none =>
      simp only [h3, Option.isSome_none, Bool.false_eq_true, if_false] at h
      cases h
      exact ⟨(fun w e => by cases e), (fun _ w e => by cases e), fun _ _ => rfl, fun _ _ => rfl,
        fun _ _ => rfl⟩

/-- **C131**: files before 3.0: the tilt of a microscope is found as `Stage.tilt_alpha`, the
exposure time of a transmission microscope as `Detector.Camera.exposure`; settings that are not
concerned, other detectors, and everything outside `Acquisition_instrument` keep their values. -/
theorem C131_before_3_0 (md md' : Dict) (h : upgrade30 md = .ok md') :
    (∀ v, atPath ["Acquisition_instrument".toList, "TEM".toList, "tilt_stage".toList] md = some v →
      atPath ["Acquisition_instrument".toList, "TEM".toList, "Stage".toList, "tilt_alpha".toList] md'
        = some v) ∧
    (∀ v, atPath ["Acquisition_instrument".toList, "SEM".toList, "tilt_stage".toList] md = some v →
      atPath ["Acquisition_instrument".toList, "SEM".toList, "Stage".toList, "tilt_alpha".toList] md'
        = some v) ∧
    (∀ v, atPath ["Acquisition_instrument".toList, "TEM".toList, "exposure_time".toList] md = some v →
      atPath ["Acquisition_instrument".toList, "TEM".toList, "Detector".toList, "Camera".toList,
        "exposure".toList] md' = some v) ∧
    (atPath ["Acquisition_instrument".toList, "TEM".toList, "exposure_time".toList] md = none →
      ∀ v, atPath ["Acquisition_instrument".toList, "TEM".toList, "exposure".toList] md = some v →
      atPath ["Acquisition_instrument".toList, "TEM".toList, "Detector".toList, "Camera".toList,
        "exposure".toList] md' = some v) ∧
    (∀ k, k ≠ "Camera".toList →
      atPath ["Acquisition_instrument".toList, "TEM".toList, "Detector".toList, k] md' =
        atPath ["Acquisition_instrument".toList, "TEM".toList, "Detector".toList, k] md) ∧
    (∀ k, k ∉ ["tilt_stage".toList, "Stage".toList, "exposure_time".toList, "exposure".toList,
        "Detector".toList] →
      atPath ["Acquisition_instrument".toList, "TEM".toList, k] md' =
        atPath ["Acquisition_instrument".toList, "TEM".toList, k] md) ∧
    (∀ k, k ∉ ["tilt_stage".toList, "Stage".toList] →
      atPath ["Acquisition_instrument".toList, "SEM".toList, k] md' =
        atPath ["Acquisition_instrument".toList, "SEM".toList, k] md) ∧
    (∀ k, k ∉ ["TEM".toList, "SEM".toList] → atPath ["Acquisition_instrument".toList, k] md' =
        atPath ["Acquisition_instrument".toList, k] md) ∧
    ∀ n, n ≠ "Acquisition_instrument".toList → find n md' = find n md := by
  unfold upgrade30 at h
  obtain ⟨a1, a2⟩ := inSection_spec h
  rcases a1 with ⟨a3, rfl⟩ | ⟨ai, ai', b1, b2, b3⟩
  · have e : find "Acquisition_instrument".toList md' = none := a3
    refine ⟨?_, ?_, ?_, ?_, fun _ _ => rfl, fun _ _ => rfl, fun _ _ => rfl, fun _ _ => rfl, a2⟩
    · intro v hv; simp only [atPath, e, items, find] at hv; cases hv
    · intro v hv; simp only [atPath, e, items, find] at hv; cases hv
    · intro v hv; simp only [atPath, e, items, find] at hv; cases hv
    · intro _ v hv; simp only [atPath, e, items, find] at hv; cases hv
  · have e : find "Acquisition_instrument".toList md = some (.dict ai) := b1
    have e' : find "Acquisition_instrument".toList md' = some (.dict ai') := b3
    cases h1 : inSection (t "TEM") (fun tem => camera (tilt tem)) ai with
    | error x => rw [h1] at b2; cases b2
    | ok ai1 =>
      rw [h1] at b2
      dsimp only at b2
      obtain ⟨c1, c2⟩ := inSection_spec h1
      obtain ⟨d1, d2⟩ := inSection_spec b2
      have htem : find "TEM".toList ai' = find "TEM".toList ai1 := d2 _ (by decide)
      have hsem : find "SEM".toList ai1 = find "SEM".toList ai := c2 _ (by decide)
      -- the transmission microscope
      have T : ∀ tem tem' : Dict, find "TEM".toList ai = some (.dict tem) →
          camera (tilt tem) = .ok tem' → find "TEM".toList ai' = some (.dict tem') →
          (∀ v, find "tilt_stage".toList tem = some v →
            atPath ["Stage".toList, "tilt_alpha".toList] tem' = some v) ∧
          (∀ v, find "exposure_time".toList tem = some v →
            atPath ["Detector".toList, "Camera".toList, "exposure".toList] tem' = some v) ∧
          (find "exposure_time".toList tem = none → ∀ v, find "exposure".toList tem = some v →
            atPath ["Detector".toList, "Camera".toList, "exposure".toList] tem' = some v) ∧
          (∀ n, n ≠ "Camera".toList → find n (items (find "Detector".toList tem')) =
            find n (items (find "Detector".toList tem))) ∧
          ∀ n, n ∉ ["tilt_stage".toList, "Stage".toList, "exposure_time".toList, "exposure".toList,
            "Detector".toList] → find n tem' = find n tem := by
        intro tem tem' _ hc _
        obtain ⟨t1, t2, t3⟩ := tilt_spec tem
        obtain ⟨k1, k2, k3, k4, k5⟩ := camera_spec hc
        have x1 : find (t "exposure_time") (tilt tem) = find (t "exposure_time") tem :=
          t3 _ (by decide) (by decide)
        have x2 : find (t "exposure") (tilt tem) = find (t "exposure") tem :=
          t3 _ (by decide) (by decide)
        have x3 : find (t "Detector") (tilt tem) = find (t "Detector") tem :=
          t3 _ (by decide) (by decide)
        rw [x1] at k1 k2
        rw [x2] at k2
        rw [x3] at k4
        refine ⟨?_, fun v hv => (k1 v hv).1, fun h0 v hv => (k2 h0 v hv).1, k4, ?_⟩
        · intro v hv
          have := (t1 v hv).1
          show find (t "tilt_alpha") (items (find (t "Stage") tem')) = some v
          rw [k5 _ (by decide)]
          exact this
        · intro n hn
          simp only [List.mem_cons, List.not_mem_nil, or_false, not_or] at hn
          obtain ⟨n1, n2, n3, n4, n5⟩ := hn
          rw [k5 n (by
            simp only [List.mem_cons, List.not_mem_nil, or_false, not_or]
            exact ⟨n3, n4, n5⟩), t3 n n1 n2]
      have G : ∀ (k : Text) ks, atPath ("Acquisition_instrument".toList :: k :: ks) md =
          atPath (k :: ks) ai := by
        intro k ks; show atPath (k :: ks) (items (find _ md)) = _; rw [e]; rfl
      have G' : ∀ (k : Text) ks, atPath ("Acquisition_instrument".toList :: k :: ks) md' =
          atPath (k :: ks) ai' := by
        intro k ks; show atPath (k :: ks) (items (find _ md')) = _; rw [e']; rfl
      have S : ∀ (k : Text) ks (d : Dict) (m : Text), atPath (m :: k :: ks) d =
          atPath (k :: ks) (items (find m d)) := fun _ _ _ _ => rfl
      simp only [G, G']
      rcases c1 with ⟨c3, c4⟩ | ⟨tem, tem', c3, c4, c5⟩
      · have n0 : find "TEM".toList ai = none := c3
        have n1 : find "TEM".toList ai' = none := by rw [htem, c4]; exact c3
        rcases d1 with ⟨d3, d4⟩ | ⟨sem, sem', d3, d4, d5⟩
        · subst d4
          subst c4
          have m0 : find "SEM".toList ai' = none := d3
          refine ⟨?_, ?_, ?_, ?_, fun _ _ => rfl, fun _ _ => rfl, fun _ _ => rfl, fun _ _ => rfl, a2⟩
          · intro v hv; rw [S, n0] at hv; cases hv
          · intro v hv; rw [S, m0] at hv; cases hv
          · intro v hv; rw [S, n0] at hv; cases hv
          · intro _ v hv; rw [S, n0] at hv; cases hv
        · cases d4
          have m0 : find "SEM".toList ai = some (.dict sem) := by rw [← hsem]; exact d3
          have m1 : find "SEM".toList ai' = some (.dict (tilt sem)) := d5
          obtain ⟨t1, t2, t3⟩ := tilt_spec sem
          refine ⟨?_, ?_, ?_, ?_, ?_, ?_, ?_, ?_, a2⟩
          · intro v hv; rw [S, n0] at hv; cases hv
          · intro v hv; rw [S, m0] at hv; rw [S, m1]; exact (t1 v hv).1
          · intro v hv; rw [S, n0] at hv; cases hv
          · intro _ v hv; rw [S, n0] at hv; cases hv
          · intro k _; rw [S _ _ ai', S _ _ ai, n0, n1]
          · intro k _; rw [S _ _ ai', S _ _ ai, n0, n1]
          · intro k hk
            simp only [List.mem_cons, List.not_mem_nil, or_false, not_or] at hk
            rw [S, S, m0, m1]
            exact t3 k hk.1 hk.2
          · intro k hk
            simp only [List.mem_cons, List.not_mem_nil, or_false, not_or] at hk
            show find k ai' = find k ai
            rw [d2 k hk.2, c4]
      · have n0 : find "TEM".toList ai = some (.dict tem) := c3
        have n1 : find "TEM".toList ai' = some (.dict tem') := by rw [htem]; exact c5
        obtain ⟨T1, T2, T3, T4, T5⟩ := T tem tem' n0 c4 n1
        have hrest : ∀ k, k ∉ ["TEM".toList, "SEM".toList] → find k ai' = find k ai := by
          intro k hk
          simp only [List.mem_cons, List.not_mem_nil, or_false, not_or] at hk
          rw [d2 k hk.2, c2 k hk.1]
        have hs : (∀ v, atPath ["SEM".toList, "tilt_stage".toList] ai = some v →
              atPath ["SEM".toList, "Stage".toList, "tilt_alpha".toList] ai' = some v) ∧
            ∀ k, k ∉ ["tilt_stage".toList, "Stage".toList] →
              atPath ["SEM".toList, k] ai' = atPath ["SEM".toList, k] ai := by
          rcases d1 with ⟨d3, d4⟩ | ⟨sem, sem', d3, d4, d5⟩
          · subst d4
            refine ⟨?_, ?_⟩
            · intro v hv
              have m0 : find "SEM".toList ai = none := by rw [← hsem]; exact d3
              rw [S, m0] at hv; cases hv
            · intro k _; rw [S, S, hsem]
          · cases d4
            have m0 : find "SEM".toList ai = some (.dict sem) := by rw [← hsem]; exact d3
            have m1 : find "SEM".toList ai' = some (.dict (tilt sem)) := d5
            obtain ⟨t1, t2, t3⟩ := tilt_spec sem
            refine ⟨?_, ?_⟩
            · intro v hv; rw [S, m0] at hv; rw [S, m1]; exact (t1 v hv).1
            · intro k hk
              simp only [List.mem_cons, List.not_mem_nil, or_false, not_or] at hk
              rw [S, S, m0, m1]
              exact t3 k hk.1 hk.2
        refine ⟨?_, hs.1, ?_, ?_, ?_, ?_, hs.2, hrest, a2⟩
        · intro v hv; rw [S, n0] at hv; rw [S, n1]; exact T1 v hv
        · intro v hv; rw [S, n0] at hv; rw [S, n1]; exact T2 v hv
        · intro h0 v hv; rw [S, n0] at hv h0; rw [S, n1]; exact T3 h0 v hv
        · intro k hk; rw [S _ _ ai', S _ _ ai, n0, n1]; exact T4 k hk
        · intro k hk; rw [S, S, n0, n1]; exact T5 k hk

/-- The version of a file is before 1.2. -/
def Before12 (a b : Nat) : Prop := a < 1 ∨ (a = 1 ∧ b < 2)

/-- The version of a file is before 1.1. -/
def Before11 (a b : Nat) : Prop := a < 1 ∨ (a = 1 ∧ b < 1)

/-- **C131**: the whole translation. In a file of version 1.1, title, date, time and file name are
found under `General` and the kind of signal under `Signal`; in an older one, so are the name
(as `title`) and the signal (as `signal_type`), unless the newer key is also there. -/
theorem C131_upgrade (env : FileEnv) (a b : Nat) (g : Group) (md att md' att' : Dict)
    (hv : Before12 a b) (h : upgrade env [a, b] g md att = .ok (md', att')) :
    (∀ k ∈ ["title".toList, "date".toList, "time".toList, "original_filename".toList], ∀ v,
      find k md = some v → atPath ["General".toList, k] md' = some v) ∧
    (∀ k ∈ ["record_by".toList, "signal_origin".toList, "signal_type".toList], ∀ v,
      find k md = some v → atPath ["Signal".toList, k] md' = some v) ∧
    (Before11 a b →
      (∀ v, find "name".toList md = some v → find "title".toList md = none →
        atPath ["General".toList, "title".toList] md' = some v) ∧
      ∀ v, find "signal".toList md = some v → find "signal_type".toList md = none →
        atPath ["Signal".toList, "signal_type".toList] md' = some v) := by
  have lt12 : ltVersion [a, b] [1, 2] = true := by
    rcases hv with hv | ⟨rfl, hv⟩
    · simp [ltVersion, hv]
    · simp [ltVersion, hv]
  have lt30 : ltVersion [a, b] [3, 0] = true := by
    rcases hv with hv | ⟨rfl, hv⟩
    · simp [ltVersion, show a < 3 by omega]
    · simp [ltVersion]
  unfold upgrade at h
  obtain ⟨r, e1, h⟩ := okBind h
  obtain ⟨m2, e2, h⟩ := okBind h
  obtain ⟨m3, e3, h⟩ := okBind h
  cases h
  unfold stage11 at e1
  unfold stage12 at e2
  unfold stage30 at e3
  rw [lt12, if_pos rfl] at e2
  rw [lt30, if_pos rfl] at e3
  obtain ⟨p1, p2, _, _, _, p3, p4, p5, p6, p7, p8, p9, p10, _⟩ := C131_before_1_2 _ _ e2
  obtain ⟨_, _, _, _, _, _, _, _, q⟩ := C131_before_3_0 _ _ e3
  have qG : find "General".toList md' = find "General".toList m2 := q _ (by decide)
  have qS : find "Signal".toList md' = find "Signal".toList m2 := q _ (by decide)
  have first : (∀ k, k ∉ ["signal".toList, "Signal".toList, "name".toList, "General".toList] →
        find k r.1 = find k md) ∧
      (Before11 a b → (∀ v, find "name".toList md = some v →
          atPath ["General".toList, "title".toList] r.1 = some v) ∧
        ∀ v, find "signal".toList md = some v →
          atPath ["Signal".toList, "signal_type".toList] r.1 = some v) := by
    by_cases h11 : Before11 a b
    · have lt11 : ltVersion [a, b] [1, 1] = true := by
        rcases h11 with hv | ⟨rfl, hv⟩
        · simp [ltVersion, hv]
        · obtain rfl : b = 0 := by omega
          rfl
      rw [lt11, if_pos rfl] at e1
      obtain ⟨u1, u2, _, u3⟩ := C131_before_1_1 env g md att r.1 r.2 e1
      exact ⟨u3, fun _ => ⟨u2, u1⟩⟩
    · have lt11 : ltVersion [a, b] [1, 1] = false := by
        unfold Before11 at h11
        by_cases ha : a = 1
        · subst ha
          simp [ltVersion, show ¬ b < 1 by omega]
        · simp [ltVersion, ha, show ¬ a < 1 by omega]
      rw [lt11] at e1
      simp only [Bool.false_eq_true, if_false] at e1
      cases e1
      exact ⟨fun _ _ => rfl, fun h => absurd h h11⟩
  have q1 : ∀ k ∈ [nTitle, t "date", t "time", t "original_filename"],
      k ∉ [t "signal", t "Signal", t "name", nGeneral] := by decide
  have q2 : ∀ k ∈ [t "record_by", t "signal_origin", t "signal_type"],
      k ∉ [t "signal", t "Signal", t "name", nGeneral] := by decide
  refine ⟨?_, ?_, ?_⟩
  · intro k hk v hv
    show find k (items (find "General".toList md')) = some v
    rw [qG]
    exact (p1 k hk v (by rw [first.1 k (q1 k hk), hv])).1
  · intro k hk v hv
    show find k (items (find "Signal".toList md')) = some v
    rw [qS]
    exact (p2 k hk v (by rw [first.1 k (q2 k hk), hv])).1
  · intro hb
    obtain ⟨f1, f2⟩ := first.2 hb
    refine ⟨?_, ?_⟩
    · intro v hv hn
      show find _ (items (find "General".toList md')) = some v
      rw [qG]
      exact (p9 _ (.inr (by rw [first.1 _ (q1 _ (by decide)), hn]))).trans (f1 v hv)
    · intro v hv hn
      show find _ (items (find "Signal".toList md')) = some v
      rw [qS]
      exact (p10 _ (.inr (by rw [first.1 _ (q2 _ (by decide)), hn]))).trans (f2 v hv)

theorem splitDots_none : ∀ l : Text, '.' ∉ l → splitDots l = [l]
  | [], _ => rfl
  | c :: l, h => by
    simp only [List.mem_cons, not_or] at h
    have hc : c ≠ '.' := fun e => h.1 e.symm
    simp [splitDots, hc, splitDots_none l h.2]

theorem splitDots_two : ∀ l m : Text, '.' ∉ l → '.' ∉ m → splitDots (l ++ '.' :: m) = [l, m]
  | [], m, _, hm => by simp [splitDots, splitDots_none m hm]
  | c :: l, m, h, hm => by
    simp only [List.mem_cons, not_or] at h
    have hc : c ≠ '.' := fun e => h.1 e.symm
    simp [splitDots, hc, splitDots_two l m h.2 hm]

theorem digitsVal_dec (n : Nat) : digitsVal (decChars n) = n := by
  have : digitsVal (decChars n) = decVal (decChars n) := by
    unfold digitsVal decVal
    congr 1
    funext a c
    rw [Nat.mul_comm]
    rfl
  rw [this, decVal_decChars]

theorem dec_digit {n : Nat} {c : Char} (h : c ∈ decChars n) : '0' ≤ c ∧ c ≤ '9' := by
  have := decChars_digits n c h
  unfold isDigit at this
  simp only [decide_eq_true_eq] at this
  exact ⟨this.1, this.2⟩

theorem dec_no_dot (n : Nat) : '.' ∉ decChars n := by
  intro h
  exact absurd (dec_digit h) (by decide)

/-- **C131**: the version of a file: the one it says; 1.0 for a file that does not say but has
experiments, 2.0 for one that has only an analysis, otherwise it is not an hspy file. -/
theorem C131_version (env : FileEnv) (f : Group) (a b : Nat) :
    (lookup "file_format_version".toList f.attrs =
      some (.text (decChars a ++ '.' :: decChars b)) → formatVersion env f = .ok [a, b]) ∧
    (lookup "file_format_version".toList f.attrs = none →
      (lookup "Experiments".toList f.items ≠ none → formatVersion env f = .ok [1, 0]) ∧
      (lookup "Experiments".toList f.items = none → lookup "Analysis".toList f.items ≠ none →
        formatVersion env f = .ok [2, 0]) ∧
      (lookup "Experiments".toList f.items = none → lookup "Analysis".toList f.items = none →
        formatVersion env f = .error .ioError)) := by
  refine ⟨?_, ?_⟩
  · intro h
    have h' : lookup nFormatVersion f.attrs = some (.text (decChars a ++ '.' :: decChars b)) := h
    unfold formatVersion
    rw [h']
    show parseVersion _ = _
    unfold parseVersion
    rw [splitDots_two _ _ (dec_no_dot a) (dec_no_dot b), if_pos]
    · simp [digitsVal_dec]
    · have hd : ∀ n, ((decChars n).all fun c => decide ('0' ≤ c) && decide (c ≤ '9')) = true := by
        intro n
        rw [List.all_eq_true]
        intro c hc
        have := dec_digit hc
        simp [this.1, this.2]
      have he : ∀ n, (decChars n).isEmpty = false := by
        intro n
        have := decChars_ne_nil n
        cases h : decChars n with
        | nil => exact absurd h this
        | cons => rfl
      simp only [List.all_cons, List.all_nil, hd, he]
      rfl
  · intro h
    have h' : lookup nFormatVersion f.attrs = none := h
    unfold formatVersion
    rw [h']
    refine ⟨?_, ?_, ?_⟩
    · intro he
      have : hasKey nExperiments f.items = true := Option.isSome_iff_ne_none.2 he
      simp [this]
    · intro hn he
      have h1 : hasKey nExperiments f.items = false := by
        have hn' : lookup nExperiments f.items = none := hn
        simp [hasKey, hn']
      have h2 : hasKey nAnalysis f.items = true := Option.isSome_iff_ne_none.2 he
      simp [h1, h2]
    · intro hn he
      have h1 : hasKey nExperiments f.items = false := by
        have hn' : lookup nExperiments f.items = none := hn
        simp [hasKey, hn']
      have h2 : hasKey nAnalysis f.items = false := by
        have he' : lookup nAnalysis f.items = none := he
        simp [hasKey, he']
      simp [h1, h2]

/-- **C131**: versions are compared as numbers: 1.10 is after 1.9. -/
theorem C131_order (a b c d : Nat) :
    ltVersion [a, b] [c, d] = true ↔ a < c ∨ (a = c ∧ b < d) := by
  by_cases h1 : a < c
  · simp [ltVersion, h1]
  · by_cases h2 : a = c
    · subst h2
      by_cases h3 : b < d
      · simp [ltVersion, h3]
      · by_cases h4 : b = d <;> simp [ltVersion, h3, h4]
    · simp [ltVersion, h1, h2]

theorem tilt_gone (s : Dict) : find (t "tilt_stage") (tilt s) = none := by
  obtain ⟨t1, t2, _⟩ := tilt_spec s
  cases h : find (t "tilt_stage") s with
  | none => rw [t2 h]; exact h
  | some v => exact (t1 v h).2

/-- **C131**: files before 3.0: tilt and exposure time are no longer at their old places. -/
theorem C131_before_3_0_moved (md md' : Dict) (h : upgrade30 md = .ok md') :
    (∀ k ∈ ["tilt_stage".toList, "exposure_time".toList],
      atPath ["Acquisition_instrument".toList, "TEM".toList, k] md' = none) ∧
    (atPath ["Acquisition_instrument".toList, "TEM".toList, "exposure_time".toList] md = none →
      atPath ["Acquisition_instrument".toList, "TEM".toList, "exposure".toList] md' = none) ∧
    atPath ["Acquisition_instrument".toList, "SEM".toList, "tilt_stage".toList] md' = none := by
  unfold upgrade30 at h
  obtain ⟨a1, a2⟩ := inSection_spec h
  have S : ∀ (k : Text) ks (d : Dict) (m : Text), atPath (m :: k :: ks) d =
      atPath (k :: ks) (items (find m d)) := fun _ _ _ _ => rfl
  have E : ∀ (k : Text) ks, atPath (k :: ks) (items none) = none := by
    intro k ks
    cases ks with
    | nil => rfl
    | cons k' ks =>
      have : ∀ (ks : List Text) (k : Text), atPath (k :: ks) [] = none := by
        intro ks
        induction ks with
        | nil => intro k; rfl
        | cons k' ks ih => intro k; exact ih k'
      exact this _ _
  rcases a1 with ⟨a3, rfl⟩ | ⟨ai, ai', b1, b2, b3⟩
  · have e : find "Acquisition_instrument".toList md' = none := a3
    refine ⟨?_, ?_, ?_⟩
    · intro k _; rw [S, e, E]
    · intro _; rw [S, e, E]
    · rw [S, e, E]
  · have e : find "Acquisition_instrument".toList md = some (.dict ai) := b1
    have e' : find "Acquisition_instrument".toList md' = some (.dict ai') := b3
    cases h1 : inSection (t "TEM") (fun tem => camera (tilt tem)) ai with
    | error x => rw [h1] at b2; cases b2
    | ok ai1 =>
      rw [h1] at b2
      dsimp only at b2
      obtain ⟨c1, c2⟩ := inSection_spec h1
      obtain ⟨d1, d2⟩ := inSection_spec b2
      have htem : find "TEM".toList ai' = find "TEM".toList ai1 := d2 _ (by decide)
      have tem3 : (∀ k ∈ ["tilt_stage".toList, "exposure_time".toList],
            find k (items (find "TEM".toList ai1)) = none) ∧
          (find "exposure_time".toList (items (find "TEM".toList ai)) = none →
            find "exposure".toList (items (find "TEM".toList ai1)) = none) := by
        rcases c1 with ⟨c3, c4⟩ | ⟨tem, tem', c3, c4, c5⟩
        · have n1 : find "TEM".toList ai1 = none := by rw [c4]; exact c3
          rw [n1]
          exact ⟨fun _ _ => rfl, fun _ => rfl⟩
        · have n0 : find "TEM".toList ai = some (.dict tem) := c3
          have n1 : find "TEM".toList ai1 = some (.dict tem') := c5
          rw [n0, n1]
          obtain ⟨k1, k2, k3, k4, k5⟩ := camera_spec c4
          obtain ⟨t1, t2, t3⟩ := tilt_spec tem
          have x1 : find (t "exposure_time") (tilt tem) = find (t "exposure_time") tem :=
            t3 _ (by decide) (by decide)
          refine ⟨?_, ?_⟩
          · intro k hk
            simp only [List.mem_cons, List.not_mem_nil, or_false] at hk
            rcases hk with rfl | rfl
            · show find (t "tilt_stage") tem' = none
              rw [k5 _ (by decide), tilt_gone]
            · show find (t "exposure_time") tem' = none
              cases h2 : find (t "exposure_time") (tilt tem) with
              | some v => exact (k1 v h2).2
              | none =>
                cases h3 : find (t "exposure") (tilt tem) with
                | none => rw [k3 h2 h3]; exact h2
                | some v =>
                  have c4' := c4
                  unfold camera at c4'
                  dsimp only at c4'
                  simp only [hasKey_find, ← find_eq, h2, h3, Option.isSome_none,
                    Option.isSome_some, Bool.false_eq_true, if_false, if_true] at c4'
                  cases h4 : sectionOrNew (t "Detector") (tilt tem) with
                  | error x => rw [h4] at c4'; cases c4'
                  | ok det =>
                    rw [h4] at c4'
                    cases c4'
                    rw [find_del_ne (by decide), find_put_ne (by decide), h2]
          · intro hx
            have hx' : find (t "exposure_time") (tilt tem) = none := by rw [x1]; exact hx
            show find (t "exposure") tem' = none
            cases h3 : find (t "exposure") (tilt tem) with
            | none => rw [k3 hx' h3]; exact h3
            | some v => exact (k2 hx' v h3).2
      refine ⟨?_, ?_, ?_⟩
      · intro k hk
        rw [S, e']
        show find k (items (find "TEM".toList ai')) = none
        rw [htem]
        exact tem3.1 k hk
      · intro hx
        rw [S, e] at hx
        rw [S, e']
        show find _ (items (find "TEM".toList ai')) = none
        rw [htem]
        exact tem3.2 hx
      · rw [S, e']
        show find (t "tilt_stage") (items (find (t "SEM") ai')) = none
        rcases d1 with ⟨d3, d4⟩ | ⟨sem, sem', d3, d4, d5⟩
        · rw [d4, d3]; rfl
        · cases d4
          rw [d5]
          exact tilt_gone sem

/-- **C131**: a file of version 1.2 or later, before 3.0, has only the last renamings. -/
theorem C131_before_3_0_only (env : FileEnv) (a b : Nat) (g : Group) (md att : Dict)
    (h1 : ¬ Before12 a b) (h2 : a < 3) (md' att' : Dict) :
    upgrade env [a, b] g md att = .ok (md', att') ↔ upgrade30 md = .ok md' ∧ att' = att := by
  unfold Before12 at h1
  have l1 : ltVersion [a, b] [1, 1] = false := by
    rw [Bool.eq_false_iff]
    intro h
    rw [C131_order] at h
    omega
  have l2 : ltVersion [a, b] [1, 2] = false := by
    rw [Bool.eq_false_iff]
    intro h
    rw [C131_order] at h
    omega
  have l3 : ltVersion [a, b] [3, 0] = true := by
    rw [C131_order]
    omega
  have e : upgrade env [a, b] g md att = (upgrade30 md >>= fun m => .ok (m, att)) := by
    simp [upgrade, stage11, stage12, stage30, l1, l2, l3, bind, Except.bind]
  rw [e]
  cases h : upgrade30 md with
  | error x =>
    constructor
    · intro h; cases h
    · rintro ⟨h, _⟩; cases h
  | ok m =>
    constructor
    · intro h; cases h; exact ⟨rfl, rfl⟩
    · rintro ⟨h, rfl⟩; cases h; rfl

/-- **C131**: results of decompositions of files before 1.1 are found under their new names. -/
theorem C131_results (env : FileEnv) (g : Group) (md att md' att' : Dict)
    (h : upgrade11 env g md att = .ok (md', att')) :
    (∀ a i, lookup "mva_results".toList g.items = some (.group a i) →
      ∃ d, group2dict env.toEnv ⟨a, i⟩ = .ok d ∧
        find "learning_results".toList att' = some (.dict d)) ∧
    (∀ a i, lookup "peak_mva_results".toList g.items = some (.group a i) →
      ∃ d, group2dict env.toEnv ⟨a, i⟩ = .ok d ∧
        find "peak_learning_results".toList att' = some (.dict d)) ∧
    ∀ n, n ∉ ["learning_results".toList, "peak_learning_results".toList] →
      find n att' = find n att := by
  unfold upgrade11 at h
  obtain ⟨a1, e1, h⟩ := okBind h
  obtain ⟨a2, e2, h⟩ := okBind h
  obtain ⟨m1, _, h⟩ := okBind h
  obtain ⟨m2, _, h⟩ := okBind h
  cases h
  have step : ∀ (name as_ : Text) (x y : Dict), addResults env g name as_ x = .ok y →
      (∀ a i, lookup name g.items = some (.group a i) →
        ∃ d, group2dict env.toEnv ⟨a, i⟩ = .ok d ∧ find as_ y = some (.dict d)) ∧
      ∀ n, n ≠ as_ → find n y = find n x := by
    intro name as_ x y hxy
    unfold addResults at hxy
    cases h1 : lookup name g.items with
    | none =>
      rw [show hasKey name g.items = false by simp [hasKey, h1]] at hxy
      simp only [Bool.false_eq_true, if_false] at hxy
      cases hxy
      exact ⟨(fun _ _ e => by cases e), fun _ _ => rfl⟩
    | some w =>
      rw [show hasKey name g.items = true by simp [hasKey, h1], if_pos rfl] at hxy
      cases h2 : readUnder env name g with
      | error x => rw [h2] at hxy; cases hxy
      | ok d =>
        rw [h2] at hxy
        cases hxy
        refine ⟨?_, fun n hn => find_put_ne hn _ _⟩
        intro a i e
        cases e
        unfold readUnder at h2
        rw [h1] at h2
        exact ⟨d, h2, find_put_same _ _ _⟩
  obtain ⟨s1, s2⟩ := step _ _ _ _ e1
  obtain ⟨r1, r2⟩ := step _ _ _ _ e2
  refine ⟨?_, ?_, ?_⟩
  · intro a i hl
    obtain ⟨d, hd, hf⟩ := s1 a i hl
    exact ⟨d, hd, by rw [r2 _ (by decide)]; exact hf⟩
  · intro a i hl
    exact r1 a i hl
  · intro n hn
    simp only [List.mem_cons, List.not_mem_nil, or_false, not_or] at hn
    rw [r2 n hn.2, s2 n hn.1]

theorem fixTitle_other {md md' : Dict} (h : fixTitle md = .ok md') (k : Text) (hk : k ≠ nGeneral) :
    find k md' = find k md := by
  unfold fixTitle at h
  split at h
  · cases h; rfl
  · split at h
    · split at h
      · cases h; exact find_put_ne hk _ _
      · cases h; rfl
    · cases h; rfl
  · cases h

/-- **C131**: reading an experiment of a file before 1.2: the metadata are those stored as
`mapped_parameters`, the original metadata those stored as `original_parameters`, and title,
date, time and file name are found under `General`. -/
theorem C131_read (env : FileEnv) (lazy : Bool) (a b : Nat) (hv : Before12 a b) (g : Group) (e : Exp)
    (h : readSignal env lazy [a, b] (upgrade env) g = .ok e) (ga oa : List (Text × Attr))
    (gi oi : List (Text × Node))
    (hg : lookup "mapped_parameters".toList g.items = some (.group ga gi))
    (ho : lookup "original_parameters".toList g.items = some (.group oa oi)) :
    ∃ md, group2dict env.toEnv ⟨ga, gi⟩ = .ok md ∧
      group2dict env.toEnv ⟨oa, oi⟩ = .ok e.originalMetadata ∧
      ∀ k ∈ ["title".toList, "date".toList, "time".toList, "original_filename".toList], ∀ v,
        find k md = some v → atPath ["General".toList, k] e.metadata = some v := by
  have lt12 : ltVersion [a, b] [1, 2] = true := by
    rw [C131_order]; exact hv
  unfold readSignal at h
  have hn : metadataNames [a, b] = (t "mapped_parameters", t "original_parameters") := by
    unfold metadataNames
    rw [lt12, if_pos rfl]
    rfl
  rw [hn] at h
  obtain ⟨md, e1, h⟩ := okBind h
  obtain ⟨om, e2, h⟩ := okBind h
  obtain ⟨att, _, h⟩ := okBind h
  obtain ⟨pk, _, h⟩ := okBind h
  obtain ⟨dt, _, h⟩ := okBind h
  dsimp only at h
  obtain ⟨ax, _, h⟩ := okBind h
  obtain ⟨at1, _, h⟩ := okBind h
  obtain ⟨at2, _, h⟩ := okBind h
  obtain ⟨md1, e3, h⟩ := okBind h
  obtain ⟨r, e4, h⟩ := okBind h
  cases h
  unfold readUnder at e1 e2
  have hg' : lookup (t "mapped_parameters") g.items = some (.group ga gi) := hg
  have ho' : lookup (t "original_parameters") g.items = some (.group oa oi) := ho
  rw [hg'] at e1
  rw [ho'] at e2
  refine ⟨md, e1, e2, ?_⟩
  intro k hk v hf
  have hkg : k ≠ nGeneral := by
    have : ∀ k ∈ [t "title", t "date", t "time", t "original_filename"], k ≠ nGeneral := by decide
    exact this k hk
  exact (C131_upgrade env a b g md1 at2 r.1 r.2 hv e4).1 k hk v
    (by rw [fixTitle_other e3 k hkg]; exact hf)

/-- **C129**: a file without groups is refused. -/
theorem C129_empty (env : FileEnv) (lazy : Bool) (attrs : List (Text × Attr)) :
    ∃ e, fileReader env lazy ⟨attrs, []⟩ = .error e := by
  unfold fileReader readFile
  cases h : formatVersion env ⟨attrs, []⟩ with
  | error e => exact ⟨e, rfl⟩
  | ok v => exact ⟨.ioError, rfl⟩

end Verif.Props.HspyOld
