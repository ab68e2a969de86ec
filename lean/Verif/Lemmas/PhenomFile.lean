import Verif.Lemmas.PhenomTable
/-! Files: pictures with their analyses. -/
namespace Verif.Lemmas.Phenom
open Verif.Phenom
open Verif.Spec.Phenom (Eds Common Line Map Times At Length Frame Picture Cutout metres Fits listOf leb flag count ShowsSpectrum ShowsLine ShowsMap
  Energy Place tag attrs text children look leafVal LeafShown fieldAt edsAt Apart Keeps KeepsRest PictureMetadata plainCutout AnalysisMetadata
  ShowsPicture ShowsAnalysis Seen AnalysisOk CommonOk isConstructive tableOf commonOf innerOf num pointAt timesOf)

theorem find_getKw {k : Text} {v : J} : ∀ {d : List (Text × J)}, getKw k d = some v → d.find? (fun e => e.1 = k) = some (k, v)
  | (k', v') :: d, h => by
    unfold getKw at h
    split at h
    · rename_i hk
      cases h
      subst hk
      rw [List.find?_cons_of_pos (by simp)]
    · rename_i hk
      rw [List.find?_cons_of_neg (by simpa using hk)]
      exact find_getKw h

theorem look_of : ∀ {p : List String} {j x : J}, getIn p j = .ok x → look p j = some x
  | [], j, x, h => by
    cases h
    rfl
  | k :: p, j, x, h => by
    unfold getIn at h
    cases hi : item k j with
    | error e => rw [hi] at h; exact absurd h (by simp [bind, Except.bind])
    | ok c =>
      rw [hi] at h
      obtain ⟨d, rfl, hg⟩ := item_dict hi
      unfold look
      rw [find_getKw hg]
      exact look_of h

theorem look_eds {k : String} {x : J} {D : List (Text × J)} {j : J} (h : getIn edsPath j = .ok (.dict D)) (hk : getKw k.toList D = some x) :
    look (edsAt ++ [k]) j = some x := look_of (edsItem_of h hk)

theorem textVal_leaf (x : Elem) : textVal (text x) = leafVal x := by
  unfold textVal leafVal
  cases text x <;> rfl

theorem attr_dict : ∀ (l : List (Text × Text)) (d : List (Text × J)), l.foldl (fun d a => setKw a.1 (.str a.2) d) d =
    update d (l.map fun a => (a.1, .str a.2))
  | [], _ => rfl
  | a :: l, d => attr_dict l (setKw a.1 (.str a.2) d)

theorem elemVal_attrs {e : Elem} (h : children e = []) (ha : attrs e ≠ []) :
    elemVal e = .dict (update [("value".toList, leafVal e)] ((attrs e).map fun a => (a.1, .str a.2))) := by
  rw [← textVal_leaf]
  cases e with
  | mk t a x c =>
    change c = [] at h
    subst h
    unfold elemVal
    dsimp only
    rw [if_pos (show a ≠ [] from ha), attr_dict]
    rfl

theorem leaf_shown {p : List String} {x : Elem} {j : J} (hc : children x = []) (h : getIn p j = .ok (elemVal x)) : LeafShown p x j := by
  have hk : ∀ {k : String} {v : J} {D : List (Text × J)}, elemVal x = .dict D → getKw k.toList D = some v → look (p ++ [k]) j = some v := by
    intro k v D hD hv
    refine look_of ?_
    rw [getIn_append, h, hD]
    show getIn [k] (.dict D) = _
    rw [getIn_one]
    exact item_of hv
  have hm : ((attrs x).map fun a => (a.1, J.str a.2)).map Prod.fst = (attrs x).map Prod.fst := by
    rw [List.map_map]; rfl
  refine ⟨fun ha => ?_, fun ha hv => ?_, fun hn n u hu => ?_⟩
  · rw [elemVal_leaf hc ha, textVal_leaf] at h
    exact look_of h
  · refine hk (elemVal_attrs hc ha) ?_
    rw [update_skip]
    · exact if_pos rfl
    · intro e he hh
      have : e.1 ∈ (attrs x).map Prod.fst := by rw [← hm]; exact List.mem_map.2 ⟨e, he, rfl⟩
      rw [hh] at this
      exact hv this
  · have ha : attrs x ≠ [] := by rintro e; rw [e] at hu; exact absurd hu List.not_mem_nil
    exact hk (elemVal_attrs hc ha) (update_hit (by rw [hm]; exact hn) (List.mem_map.2 ⟨_, hu, rfl⟩))

/-- What the analyses of a picture refer to. -/
structure Am (env : Env) (t : Tiff) (j : J) (date : Option (Text × Text)) : Prop where
  dict : ∃ d, j = .dict d
  dated : dateTime j = .ok date
  plain : t.xml = none → j = .dict [] ∧ date = none
  frm : ∀ e h w d, t.xml = some e → Frame env e h w d → Frm env j h w (max (h * t.rows) (w * t.cols)) d ∧ d = date
  some : ∀ e, t.xml = some e → (∃ h w d, Frame env e h w d) ∧ ∀ p : List String, ¬ fieldAt <+: p → ¬ p <+: fieldAt → getIn p j = getIn p (elemVal e)

theorem am_ok {env : Env} {bs : List UInt8} {t : Tiff} (h : Picture env bs t) : ∃ j date, tiffMeta env t = .ok j ∧ Am env t j date := by
  obtain ⟨_, _, _, hx⟩ := h
  cases hxml : t.xml with
  | none =>
    refine ⟨.dict [], none, by unfold tiffMeta; rw [hxml], ⟨_, rfl⟩, rfl, fun _ => ⟨rfl, rfl⟩, ?_, ?_⟩
    · intro e h w d he; rw [hxml] at he; exact absurd he (by simp)
    · intro e he; rw [hxml] at he; exact absurd he (by simp)
  | some e =>
    obtain ⟨h, w, d, hf⟩ := hx e hxml
    obtain ⟨j, hm, hj, _, hkeep⟩ := tiffMeta_frame hxml hf
    refine ⟨j, d, hm, hj.dict.imp fun _ h => h.1, hj.date, ?_, ?_, ?_⟩
    · intro he; rw [hxml] at he; exact absurd he (by simp)
    · intro e' h' w' d' he hf'
      obtain ⟨j', hm', hj', _, _⟩ := tiffMeta_frame he hf'
      rw [hm] at hm'
      cases hm'
      refine ⟨hj', ?_⟩
      have := hj'.date.symm.trans hj.date
      cases this
      rfl
    · intro e' he
      rw [hxml] at he
      cases he
      exact ⟨⟨h, w, d, hf⟩, hkeep⟩

theorem am_ctx {env : Env} {t : Tiff} {j : J} {date : Option (Text × Text)} (h : Am env t j date) (hx : t.xml ≠ none) : Ctx j date := by
  cases hxml : t.xml with
  | none => exact absurd hxml hx
  | some e =>
    obtain ⟨⟨h', w, d, hf⟩, _⟩ := h.some e hxml
    exact ⟨(h.frm e h' w d hxml hf).1.det, h.dict, h.dated⟩

theorem hasKey_item {k : String} {d : List (Text × J)} : hasKey k (.dict d) = .ok (getKw k.toList d).isSome := rfl

theorem old_ok {env : Env} {t : Tiff} {j : J} {date : Option (Text × Text)} {o : Option (ℚ × ℚ)} (h : Am env t j date)
    (hn : t.xml = none → o = none) (ho : ∀ e, t.xml = some e → Spec.Phenom.Old env e o) : Old env j (oldList o) := by
  cases hxml : t.xml with
  | none =>
    obtain ⟨rfl, _⟩ := h.plain hxml
    rw [hn hxml]
    exact .inl ⟨rfl, rfl⟩
  | some e =>
    obtain ⟨⟨h', w, d, hf⟩, hkeep⟩ := h.some e hxml
    have hval := elemVal_children (frame_children hf)
    obtain ⟨dj, rfl⟩ := h.dict
    have hwd := hkeep ["workingDistance"] (by decide) (by decide)
    rw [getIn_one, getIn_one, hval] at hwd
    rcases ho e hxml with ⟨rfl, hno⟩ | ⟨x, wd, y, tx, s, hx, hlx, hy, hcy, hay, hty, hfl, rfl⟩
    · refine .inl ⟨?_, rfl⟩
      rw [hasKey_item]
      have : getKw "workingDistance".toList (childVals (children e) []) = none := by rw [childVals_skip hno]; rfl
      cases hg : getKw "workingDistance".toList dj with
      | none => rfl
      | some v =>
        rw [item_of hg] at hwd
        unfold item at hwd
        dsimp only at hwd
        rw [this] at hwd
        exact absurd hwd (by simp)
    · have hix := getIn_at hx
      rw [getIn_one, hval] at hix
      rw [hix] at hwd
      have hsp := (hkeep ["acquisition", "scan", "spotSize"] (by decide) (by decide)).trans (getIn_at hy)
      obtain ⟨d', e', hg⟩ := item_dict hwd
      cases e'
      refine .inr ⟨by rw [hasKey_item, hg]; rfl, ?_⟩
      unfold oldMetadata
      simp only [hwd, bind, Except.bind, length_value hlx, hsp, elemVal_leaf hcy hay, hty, textVal, toFloat, hfl]
      rfl

theorem keeps_of {env : Env} {t : Tiff} {j : J} {date : Option (Text × Text)} (h : Am env t j date) {e : Elem} (he : t.xml = some e) {eds r : J}
    (ho : Original j eds r) : Keeps e r := by
  intro p x hp hc h1 h2
  refine leaf_shown hc ?_
  rw [ho.kept p h2.2 h2.1, (h.some e he).2 p h1.2 h1.1]
  exact getIn_at hp

theorem field_of {env : Env} {t : Tiff} {j : J} {date : Option (Text × Text)} (h : Am env t j date) {e : Elem} {x w : ℚ} {d : Option (Text × Text)}
    (he : t.xml = some e) (hf : Frame env e x w d) {eds r : J} (ho : Original j eds r) :
    look fieldAt r = some (.num (max (x * t.rows) (w * t.cols))) := by
  refine look_of ?_
  rw [ho.kept fieldAt (by decide) (by decide)]
  exact (h.frm e x w d he hf).1.field

theorem frm_unique {env : Env} {j : J} {h w f h' w' f' : ℚ} {d d' : Option (Text × Text)} (a : Frm env j h w f d) (b : Frm env j h' w' f' d') :
    h = h' ∧ w = w' ∧ f = f' ∧ d = d' := by
  obtain ⟨x, x1, x2⟩ := a.height
  obtain ⟨x', x1', x2'⟩ := b.height
  rw [x1] at x1'
  cases x1'
  rw [x2] at x2'
  cases x2'
  obtain ⟨y, y1, y2⟩ := a.width
  obtain ⟨y', y1', y2'⟩ := b.width
  rw [y1] at y1'
  cases y1'
  rw [y2] at y2'
  cases y2'
  have h1 := a.field
  rw [b.field] at h1
  cases h1
  have h2 := a.date
  rw [b.date] at h2
  cases h2
  exact ⟨rfl, rfl, rfl, rfl⟩

/-- The signal of a picture. -/
def pictureSig (t : Tiff) (sy sx : ℚ) (u : Text) (label : Text) (date : Option (Text × Text)) (j : J) : Sig :=
  ⟨[t.rows, t.cols], t.pixels, [placeAxis "y" 0 sy t.rows u, placeAxis "x" 1 sx t.cols u], label, none, date, j⟩

theorem picture_ok {env : Env} {t : Tiff} {j : J} {date : Option (Text × Text)} (h : Am env t j date) (label : Text) :
    ∃ s, imageSignal env j (some t) label = .ok s ∧ ShowsPicture env t label s ∧ PictureMetadata env t s := by
  cases hxml : t.xml with
  | none =>
    obtain ⟨rfl, rfl⟩ := h.plain hxml
    refine ⟨pictureSig t 1 1 "points".toList label none (.dict []), rfl, ⟨rfl, rfl, rfl, rfl, ?_, ?_⟩, ?_, ?_⟩
    · exact fun _ => ⟨rfl, _, _, rfl, ⟨rfl, rfl, rfl, rfl, rfl, rfl⟩, rfl, rfl, rfl, rfl, rfl, rfl⟩
    · intro e h w d he; rw [hxml] at he; exact absurd he (by simp)
    · exact fun _ => rfl
    · intro e he; rw [hxml] at he; exact absurd he (by simp)
  | some e =>
    obtain ⟨⟨x, w, d, hf⟩, hkeep⟩ := h.some e hxml
    obtain ⟨hj, rfl⟩ := h.frm e x w d hxml hf
    obtain ⟨dj, rfl, hne⟩ := hj.dict
    obtain ⟨jx, hx1, hx2⟩ := hj.height
    obtain ⟨jw, hw1, hw2⟩ := hj.width
    obtain ⟨hu1, hu0⟩ := getUnit_metres (1 / 5 * max (x * t.rows) (w * t.cols))
    generalize hU : getUnit (1 / 5 * max (x * t.rows) (w * t.cols)) = U at hu1 hu0
    have ht : truthy (.dict dj) = true := by unfold truthy; simpa using hne
    refine ⟨pictureSig t (x / U.1) (w / U.1) (U.2 ++ ['m']) label d (.dict dj), ?_, ⟨rfl, rfl, rfl, rfl, ?_, ?_⟩, ?_, ?_⟩
    · unfold imageSignal imageScales
      rw [if_pos ht]
      simp only [hj.field, asNum, bind, Except.bind, hw1, hw2, hx1, hx2, hj.date, pure, Except.pure, hU]
      rfl
    · intro he; rw [hxml] at he; exact absurd he (by simp)
    · intro e' x' w' d' he hf'
      obtain ⟨hj', _⟩ := h.frm e' x' w' d' he hf'
      obtain ⟨rfl, rfl, _, rfl⟩ := frm_unique hj hj'
      refine ⟨rfl, _, _, rfl, place_ok hu1 ?_, place_ok hu1 ?_⟩
      · field_simp
      · field_simp
    · intro he; rw [hxml] at he; exact absurd he (by simp)
    · intro e' he
      rw [hxml] at he
      cases he
      refine ⟨fun p y hp hc ha => leaf_shown hc ?_, fun x' w' d' hf' => look_of (h.frm e x' w' d' hxml hf').1.field⟩
      show getIn p (.dict dj) = _
      rw [hkeep p ha.2 ha.1]
      exact getIn_at hp

end Verif.Lemmas.Phenom
