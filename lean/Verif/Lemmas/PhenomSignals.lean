import Verif.Lemmas.PhenomFile
/-! Signals of analyses with their metadata. -/
namespace Verif.Lemmas.Phenom
open Verif.Phenom
open Verif.Spec.Phenom (Eds Common Line Map Times At Length Frame Picture Cutout metres Fits listOf leb flag count ShowsSpectrum ShowsLine ShowsMap
  Energy Place tag attrs text children look leafVal LeafShown fieldAt edsAt Apart Keeps KeepsRest PictureMetadata plainCutout AnalysisMetadata
  ShowsPicture ShowsAnalysis Seen AnalysisOk CommonOk isConstructive tableOf commonOf innerOf num pointAt timesOf edsTable timeTable commonTable FreeOk)

theorem range_each {α β : Type} (f : α → β) : ∀ l : List α, (List.range l.length).filterMap (fun i => (l[i]?).map f) = l.map f
  | [] => rfl
  | a :: l => by
    rw [List.length_cons, List.range_succ_eq_map, List.filterMap_cons, List.filterMap_map]
    show f a :: (List.range l.length).filterMap (fun i => (l[i]?).map f) = _
    rw [range_each f l]
    rfl

theorem range_all {β : Type} (b : β) (n : Nat) : (List.range n).filterMap (fun _ => some b) = List.replicate n b := by
  induction n with
  | zero => rfl
  | succ n ih => rw [List.range_succ, List.filterMap_append, ih, List.replicate_succ']; rfl

theorem times_eq {env : Env} {n : Nat} {t : Times} (h : t.Ok n) : nums (timeList env n t) = .list (timesOf env n t) := by
  unfold nums timesOf
  congr 1
  cases t with
  | each l =>
    change l.length = n at h
    subst h
    show ((l.map fun x => env.f64 x.toNat).map J.num) = (List.range l.length).filterMap fun i => (l[i]?).map (num env)
    rw [range_each, List.map_map]
    rfl
  | all t =>
    show ((List.replicate n (env.f64 t.toNat)).map J.num) = (List.range n).filterMap fun _ => some (num env t)
    rw [range_all, List.map_replicate]
    rfl

theorem table_eq {env : Env} {h w : Nat} {t : Times} (ht : t.Ok (h * w)) : table h w (timeList env (h * w) t) =
    .list ((List.range h).map fun y => .list ((List.range w).filterMap fun x => (t.at (y * w + x)).map (num env))) := by
  unfold table nums
  congr 1
  refine List.map_congr_left fun y hy => ?_
  have hy := List.mem_range.1 hy
  have hle : y * w + w ≤ h * w := by
    have : (y + 1) * w ≤ h * w := Nat.mul_le_mul_right w hy
    rw [Nat.add_mul, Nat.one_mul] at this
    exact this
  congr 1
  cases t with
  | each l =>
    change l.length = h * w at ht
    have hlen : ((l.drop (y * w)).take w).length = w := by rw [List.length_take, List.length_drop, ht]; omega
    have e1 : (List.range w).filterMap (fun x => ((Times.each l).at (y * w + x)).map (num env)) =
        (List.range ((l.drop (y * w)).take w).length).filterMap (fun x => (((l.drop (y * w)).take w)[x]?).map (num env)) := by
      rw [hlen]
      refine List.filterMap_congr fun x hx => ?_
      show (l[y * w + x]?).map (num env) = _
      rw [List.getElem?_take, if_pos (List.mem_range.1 hx), List.getElem?_drop]
    rw [e1, range_each]
    show ((((l.map fun x => env.f64 x.toNat).drop (y * w)).take w).map J.num) = _
    rw [← List.map_drop, ← List.map_take, List.map_map]
    rfl
  | all t =>
    show (((List.replicate (h * w) (env.f64 t.toNat)).drop (y * w)).take w).map J.num = (List.range w).filterMap fun _ => some (num env t)
    rw [range_all, List.drop_replicate, List.take_replicate, List.map_replicate, show min w (h * w - y * w) = w by omega]
    rfl

theorem line_keys (env : Env) (c : Common) (l : Line) : (lineList env c l).map Prod.fst = ["live_time".toList, "real_time".toList, "begin".toList, "end".toList,
    "offset".toList, "dispersion".toList, "real_time_values".toList, "live_time_values".toList, "high_accuracy_quantification".toList] := rfl

theorem map_keys (env : Env) (c : Common) (m : Map) : (mapList env c m).map Prod.fst = ["live_time".toList, "real_time".toList,
    "real_time_values".toList, "live_time_values".toList] := rfl

theorem line_table {env : Env} {v : Nat} {c : Common} {l : Line} {i t : Text} {o : Option (ℚ × ℚ)} (hl : l.Ok) : ∀ kx ∈ tableOf env v o (.line c l) i t,
    getKw kx.1.toList (update (edsDict env v l.eds t (oldList o)) (lineList env c l)) = some kx.2 := by
  intro kx h
  unfold tableOf at h
  dsimp only at h
  rw [← times_eq hl.real, ← times_eq hl.live, List.append_assoc] at h
  rcases List.mem_append.1 h with h | h
  · rw [update_skip]
    · exact eds_table env v l.eds t o kx (List.mem_append_left _ h)
    · intro y hy e
      have := key_mem (line_keys env c l) hy
      rw [e] at this
      exact (by decide +kernel : ∀ k ∈ ["live_time".toList, "real_time".toList, "begin".toList, "end".toList, "offset".toList, "dispersion".toList,
        "real_time_values".toList, "live_time_values".toList, "high_accuracy_quantification".toList], k ∉ ownKeys) _ this (own_keys env v l.eds t o kx h)
  · refine update_hit ?_ (show (kx.1.toList, kx.2) ∈ lineList env c l from mem_keyed h)
    rw [line_keys]
    decide +kernel

theorem map_table {env : Env} {v : Nat} {c : Common} {m : Map} {i t : Text} {o : Option (ℚ × ℚ)} (hm : m.Ok) : ∀ kx ∈ tableOf env v o (.map c m) i t,
    getKw kx.1.toList (update (edsDict env v m.eds t (oldList o)) (mapList env c m)) = some kx.2 := by
  intro kx h
  unfold tableOf at h
  dsimp only at h
  rw [← table_eq hm.real, ← table_eq hm.live, List.append_assoc] at h
  rcases List.mem_append.1 h with h | h
  · rw [update_skip]
    · exact eds_table env v m.eds t o kx (List.mem_append_left _ h)
    · intro y hy e
      have := key_mem (map_keys env c m) hy
      rw [e] at this
      exact (by decide +kernel : ∀ k ∈ ["live_time".toList, "real_time".toList, "real_time_values".toList, "live_time_values".toList], k ∉ ownKeys) _ this
        (own_keys env v m.eds t o kx h)
  · refine update_hit ?_ (show (kx.1.toList, kx.2) ∈ mapList env c m from mem_keyed h)
    rw [map_keys]
    decide +kernel

/-- Keys of the common part. -/
def commonKeys : List Text := edsKeys ++ ["offset".toList, "dispersion".toList] ++ restKeys.map String.toList

theorem common_keys {env : Env} {v : Nat} {c : Common} {t : Text} {o : Option (ℚ × ℚ)} :
    ∀ kx ∈ edsTable env v c.eds t o ++ timeTable env c.eds ++ commonTable env v c, kx.1.toList ∈ commonKeys := by
  intro kx h
  rcases List.mem_append.1 h with h | h
  · exact List.mem_append_left _ (List.mem_append_left _ (table_keys env v c.eds t o kx h))
  · unfold commonKeys
    rw [List.append_assoc]
    refine List.mem_append_right _ ?_
    rw [(rest_table env v c).1] at h
    rcases List.mem_append.1 h with h | h
    · exact List.mem_append_left _ (by
        rcases List.mem_cons.1 h with h | h
        · rw [h]; exact List.mem_cons_self
        · rw [List.mem_singleton.1 h]; exact List.mem_cons_of_mem _ List.mem_cons_self)
    · exact List.mem_append_right _ (key_mem (rest_keys v c) (by rw [← (rest_table env v c).2]; exact mem_keyed h))

theorem extra_table {env : Env} {v : Nat} {c : Common} {t : Text} {o : Option (ℚ × ℚ)} {k : String} {x : J} (hk : k.toList ∉ commonKeys) :
    ∀ kx ∈ edsTable env v c.eds t o ++ timeTable env c.eds ++ commonTable env v c ++ [(k, x)],
      getKw kx.1.toList (setKw k.toList x (commonDict env v c t (oldList o))) = some kx.2 := by
  intro kx h
  rw [getKw_setKw]
  rcases List.mem_append.1 h with h | h
  · rw [if_neg fun e => hk (by rw [← e]; exact common_keys kx h)]
    exact common_table env v c t o kx h
  · rw [List.mem_singleton.1 h]
    exact if_pos rfl

/-- The signal of an analysis, and its metadata. -/
def Result (env : Env) (v : Nat) (n : Seen) (a : Spec.Phenom.Analysis) (r : Option Sig) : Prop :=
  (isConstructive a = true ∧ r = none) ∨
    (isConstructive a = false ∧ ∃ s, r = some s ∧ ShowsAnalysis env n.tiff n.label a s ∧ AnalysisMetadata env v n a s)

theorem same_text {r : Py Text} {a b : Text} (h1 : r = .ok a) (h2 : r = .ok b) : a = b := by
  rw [h1] at h2; cases h2; rfl

theorem dateTime_dict {j : J} {r : Option (Text × Text)} (h : dateTime j = .ok r) : ∃ d, j = .dict d := by
  cases j with
  | dict d => exact ⟨d, rfl⟩
  | _ => exact absurd h (by simp [dateTime, hasKey, bind, Except.bind])

theorem getIn_head {k : String} {p : List String} {j x : J} (h : getIn (k :: p) j = .ok x) : ∃ y, item k j = .ok y := by
  unfold getIn at h
  cases hi : item k j with
  | error e => rw [hi] at h; exact absurd h (by simp [bind, Except.bind])
  | ok c => exact ⟨c, rfl⟩

theorem merged_path {am om r : J} (h : Merged am om r) {k : String} {p : List String} {x : J} (hx : getIn (k :: p) om = .ok x) : getIn (k :: p) r = .ok x := by
  obtain ⟨y, hy⟩ := getIn_head hx
  rw [h.new k p y hy, hx]

theorem fresh_item {eds : J} {k : String} (hk : k ≠ "acquisition") : item k (freshMeta eds) = .error .keyError := by
  have : ¬ "acquisition".toList = k.toList := fun h => hk (toList_inj.1 h).symm
  unfold freshMeta item
  dsimp only
  rw [show getKw k.toList [("acquisition".toList, (J.dict [("scan".toList, .dict [("detectors".toList, .dict [("EDS".toList, eds)])])]))] = none by
    unfold getKw
    rw [if_neg this]
    rfl]

/-- What is known about a picture. -/
structure Known (env : Env) (v : Nat) (n : Seen) (j : J) (date : Option (Text × Text)) : Prop where
  am : Am env n.tiff j date
  old : v = 0 → Old env j (oldList n.old)

theorem result_sum {env : Env} {v : Nat} {n : Seen} {j : J} {date : Option (Text × Text)} (hk : Known env v n j date) {a : Spec.Phenom.Analysis} {s : Sig}
    {D : List (Text × J)} (hm : ∀ c, a ≠ .msa c) (ho : Original j (.dict D) s.original) (hd : s.date = date)
    (ht : ∀ i i', env.utf8 (commonOf a).eds.instrument = .ok i → env.utf8 (innerOf a).instrument = .ok i' →
      ∀ kx ∈ tableOf env v n.old a i i', getKw kx.1.toList D = some kx.2) : AnalysisMetadata env v n a s := by
  have key : ∀ e h w d, n.tiff.xml = some e → Frame env e h w d → Keeps e s.original ∧ s.date = d ∧
      look fieldAt s.original = some (.num (max (h * n.tiff.rows) (w * n.tiff.cols))) := fun e h w d he hf =>
    ⟨keeps_of hk.am he ho, by rw [hd, (hk.am.frm e h w d he hf).2], field_of hk.am he hf ho⟩
  refine ⟨fun i i' h1 h2 kx hkx => look_eds ho.found (ht i i' h1 h2 kx hkx), ?_⟩
  cases a with
  | msa c => exact absurd rfl (hm c)
  | _ => exact key

attribute [local irreducible] commonDict edsDict update setKw in
theorem analysis_msa {env : Env} {v : Nat} {n : Seen} {j : J} {date : Option (Text × Text)} (hk : Known env v n j date) {c : Common} (hc : CommonOk env c) :
    ∃ r, Reads (analysis env v n.label j) (Spec.Phenom.analysis v (.msa c)) r ∧ Result env v n (.msa c) r := by
  obtain ⟨hok, hcut, t, hu⟩ := hc
  obtain ⟨s, om, h1, h2, h3, h4, h5⟩ := reads_msa (label := n.label) hok hcut hu hk.old hk.am.dict hk.am.dated
  refine ⟨some s, Reads.bind (reads_u8 1) (Reads.last h1 (Reads.pure _)), .inr ⟨rfl, s, rfl, h2, ?_, ?_, ?_⟩⟩
  · intro i i' hi _ kx hkx
    obtain rfl := same_text hu hi
    have := common_table env v c t n.old kx hkx
    exact look_of (merged_path h4 (edsItem_of h3.found this))
  · intro tf e hne htf hx p x hp hcx ha1 ha2
    cases p with
    | nil => exact absurd (List.nil_prefix) ha1.1
    | cons k p =>
      refine leaf_shown hcx (merged_path h4 ?_)
      rw [h3.kept tf e hne htf hx (k :: p) ha1.2 ha1.1 ha2.2 ha2.1]
      exact getIn_at hp
  · intro hplain
    obtain rfl := h3.fresh hplain
    have hold : ∀ k p, k ≠ "acquisition" → getIn (k :: p) s.original = getIn (k :: p) j := fun k p hkk => h4.old k p _ (fresh_item hkk)
    have hdate : s.date = date := by
      obtain ⟨d1, e1⟩ := hk.am.dict
      obtain ⟨d2, e2⟩ := dateTime_dict h5
      have := dateTime_congr e1 e2 (hold "time" [] (by decide))
      rw [h5, hk.am.dated] at this
      cases this
      rfl
    refine ⟨fun hx => by rw [hdate]; exact (hk.am.plain hx).2, fun e h w d hx hf => ⟨?_, by rw [hdate, (hk.am.frm e h w d hx hf).2]⟩⟩
    intro p x hp hcx hhead hnil
    cases p with
    | nil => exact absurd rfl hnil
    | cons k p =>
      have hkk : k ≠ "acquisition" := fun e => hhead (by rw [e]; rfl)
      refine leaf_shown hcx ?_
      rw [hold k p hkk, (hk.am.some e hx).2]
      · exact getIn_at hp
      · rintro ⟨q, hq⟩
        exact hkk (by simpa [fieldAt] using (congrArg List.head? hq).symm)
      · rintro ⟨q, hq⟩
        exact hkk (by simpa [fieldAt] using (congrArg List.head? hq))

attribute [local irreducible] commonDict edsDict update setKw in
theorem analysis_spot {env : Env} {v : Nat} {n : Seen} {j : J} {date : Option (Text × Text)} (hk : Known env v n j date) {c : Common} (hc : CommonOk env c)
    (hx : n.tiff.xml ≠ none) (x y : UInt64) :
    ∃ r, Reads (analysis env v n.label j) (Spec.Phenom.analysis v (.spot c x y)) r ∧ Result env v n (.spot c x y) r := by
  obtain ⟨hok, hcut, t, hu⟩ := hc
  obtain ⟨s, h1, h2, h3, h4⟩ := reads_spot (label := n.label) hok hcut hu hk.old (am_ctx hk.am hx) x y
  refine ⟨some s, Reads.bind (reads_u8 2) (Reads.last h1 (Reads.pure _)), .inr ⟨rfl, s, rfl, h2, result_sum hk (fun _ => by simp) h3 h4 ?_⟩⟩
  intro i i' hi _ kx hkx
  obtain rfl := same_text hu hi
  exact extra_table (k := "position") (by decide +kernel) kx hkx

attribute [local irreducible] commonDict edsDict update setKw in
theorem analysis_region {env : Env} {v : Nat} {n : Seen} {j : J} {date : Option (Text × Text)} (hk : Known env v n j date) {c : Common} (hc : CommonOk env c)
    (hx : n.tiff.xml ≠ none) (x1 x2 x3 x4 : UInt64) :
    ∃ r, Reads (analysis env v n.label j) (Spec.Phenom.analysis v (.region c x1 x2 x3 x4)) r ∧ Result env v n (.region c x1 x2 x3 x4) r := by
  obtain ⟨hok, hcut, t, hu⟩ := hc
  obtain ⟨s, h1, h2, h3, h4⟩ := reads_region (label := n.label) hok hcut hu hk.old (am_ctx hk.am hx) x1 x2 x3 x4
  refine ⟨some s, Reads.bind (reads_u8 6) (Reads.last h1 (Reads.pure _)), .inr ⟨rfl, s, rfl, h2, result_sum hk (fun _ => by simp) h3 h4 ?_⟩⟩
  intro i i' hi _ kx hkx
  obtain rfl := same_text hu hi
  exact extra_table (k := "rectangle") (by decide +kernel) kx hkx

attribute [local irreducible] commonDict edsDict update setKw in
theorem analysis_difference {env : Env} {v : Nat} {n : Seen} {j : J} {date : Option (Text × Text)} (hk : Known env v n j date) {c : Common} (hc : CommonOk env c)
    (hx : n.tiff.xml ≠ none) (m k : UInt32) :
    ∃ r, Reads (analysis env v n.label j) (Spec.Phenom.analysis v (.difference c m k)) r ∧ Result env v n (.difference c m k) r := by
  obtain ⟨hok, hcut, t, hu⟩ := hc
  obtain ⟨s, h1, h2, h3, h4⟩ := reads_difference (label := n.label) hok hcut hu hk.old (am_ctx hk.am hx) m k
  refine ⟨some s, Reads.bind (reads_u8 5) (Reads.last h1 (Reads.pure _)), .inr ⟨rfl, s, rfl, h2, result_sum hk (fun _ => by simp) h3 h4 ?_⟩⟩
  intro i i' hi _ kx hkx
  obtain rfl := same_text hu hi
  exact common_table env v c t n.old kx hkx

attribute [local irreducible] commonDict edsDict update setKw in
theorem analysis_line {env : Env} {v : Nat} {n : Seen} {j : J} {date : Option (Text × Text)} (hk : Known env v n j date) {c : Common} {l : Line}
    (h : AnalysisOk env n.tiff (.line c l)) :
    ∃ r, Reads (analysis env v n.label j) (Spec.Phenom.analysis v (.line c l)) r ∧ Result env v n (.line c l) r := by
  obtain ⟨⟨hok, hcut, t, hu⟩, hx, hl, ⟨t', hu'⟩, ho, hd⟩ := h
  obtain ⟨s, h1, h2, h3, h4⟩ := reads_line (label := n.label) hok hcut hu hk.old (am_ctx hk.am hx) hl hu' ho hd
  refine ⟨some s, Reads.bind (reads_u8 3) (Reads.last h1 (Reads.pure _)), .inr ⟨rfl, s, rfl, h2, result_sum hk (fun _ => by simp) h3 h4 ?_⟩⟩
  intro i i' hi hi' kx hkx
  obtain rfl := same_text hu' hi'
  exact line_table hl kx hkx

attribute [local irreducible] commonDict edsDict update setKw in
theorem analysis_map {env : Env} {v : Nat} {n : Seen} {j : J} {date : Option (Text × Text)} (hk : Known env v n j date) {c : Common} {m : Map}
    (h : AnalysisOk env n.tiff (.map c m)) :
    ∃ r, Reads (analysis env v n.label j) (Spec.Phenom.analysis v (.map c m)) r ∧ Result env v n (.map c m) r := by
  obtain ⟨⟨hok, hcut, t, hu⟩, hm, ⟨t', hu'⟩, ho, hd, e, h, w, d, q, hxml, hf, hsq, y, ty, hy, hcy, hay, hty, hfl⟩ := h
  have hx : n.tiff.xml ≠ none := by rw [hxml]; simp
  have hfrm := (hk.am.frm e h w d hxml hf).1
  have hs := ((hk.am.some e hxml).2 ["acquisition", "scan", "scanScale"] (by decide) (by decide)).trans (getIn_at hy)
  have hjs : toFloat env (elemVal y) = .ok q := by rw [elemVal_leaf hcy hay, hty]; exact hfl
  obtain ⟨s, h1, h2, h3, h4⟩ := reads_map (label := n.label) hok hcut hu hk.old (am_ctx hk.am hx) hm hu' ho hd hfrm.field hs hjs
  refine ⟨some s, Reads.bind (reads_u8 4) (Reads.last h1 (Reads.pure _)), .inr ⟨rfl, s, rfl, ?_, result_sum hk (fun _ => by simp) h3 h4 ?_⟩⟩
  · intro e' h' w' d' q' hxml' hf' ⟨y', ty', hy', hcy', hay', hty', hfl'⟩
    obtain ⟨rfl, rfl, _, rfl⟩ := frm_unique hfrm (hk.am.frm e' h' w' d' hxml' hf').1
    have hs' := ((hk.am.some e' hxml').2 ["acquisition", "scan", "scanScale"] (by decide) (by decide)).trans (getIn_at hy')
    have hjs' : toFloat env (elemVal y') = .ok q' := by rw [elemVal_leaf hcy' hay', hty']; exact hfl'
    rw [hs] at hs'
    have e1 : elemVal y = elemVal y' := Except.ok.inj hs'
    rw [← e1, hjs] at hjs'
    cases hjs'
    rw [hsq, max_self] at h2
    rw [hsq]
    exact h2
  · intro i i' hi hi' kx hkx
    obtain rfl := same_text hu' hi'
    exact map_table hm kx hkx

theorem analysis_constructive {env : Env} {v : Nat} {label : Text} {j : J} {g : List (Text × J)} (hg : v = 0 → Old env j g) {c : Common} {d : List UInt8}
    {l : List (UInt32 × UInt64)} (hc : CommonOk env c) (hd : Fits d) (hl : Fits l) (hu : ∃ t, env.utf8 d = .ok t) :
    Reads (analysis env v label j) (Spec.Phenom.analysis v (.constructive c d l)) none := by
  obtain ⟨hok, hcut, t, hu'⟩ := hc
  obtain ⟨td, hud⟩ := hu
  exact Reads.bind (reads_u8 7) (Reads.last (reads_constructive hok hcut hu' hg hd hud hl) (Reads.pure _))

theorem analysis_ok {env : Env} {v : Nat} {n : Seen} {j : J} {date : Option (Text × Text)} (hk : Known env v n j date) {a : Spec.Phenom.Analysis}
    (h : AnalysisOk env n.tiff a) : ∃ r, Reads (analysis env v n.label j) (Spec.Phenom.analysis v a) r ∧ Result env v n a r := by
  cases a with
  | msa c => exact analysis_msa hk h
  | spot c x y => exact analysis_spot hk h.1 h.2 x y
  | line c l => exact analysis_line hk h
  | map c m => exact analysis_map hk h
  | difference c m k => exact analysis_difference hk h.1 h.2 m k
  | region c x1 x2 x3 x4 => exact analysis_region hk h.1 h.2 x1 x2 x3 x4
  | constructive c d l => exact ⟨none, analysis_constructive hk.old h.1 h.2.1 h.2.2.1 h.2.2.2, .inl ⟨rfl, rfl⟩⟩

end Verif.Lemmas.Phenom
