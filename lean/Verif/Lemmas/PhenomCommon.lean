import Verif.Lemmas.PhenomXml
/-! The common part of analyses in ELID files. -/
namespace Verif.Lemmas.Phenom
open Verif.Phenom
open Verif.Spec.Phenom (Eds Common At Length Dated Frame Picture Cutout metres Fits tag attrs text children listOf leb)

/-- Metadata of a picture as the analyses need it. -/
structure Frm (env : Env) (j : J) (h w field : ℚ) (date : Option (Text × Text)) : Prop where
  dict : ∃ d, j = .dict d ∧ d ≠ []
  height : ∃ x, item "pixelHeight" j = .ok x ∧ valueWithUnit env x = .ok h
  width : ∃ x, item "pixelWidth" j = .ok x ∧ valueWithUnit env x = .ok w
  det : ∃ d, getIn ["acquisition", "scan", "detectors"] j = .ok (.dict d)
  field : getIn ["acquisition", "scan", "fieldSize"] j = .ok (.num field)
  date : dateTime j = .ok date

/-- Keys occur once. -/
def Keys (j : J) : Prop := ∀ d, j = .dict d → (d.map Prod.fst).Nodup

theorem mem_keys_setKw {α : Type} {k x : Text} {v : α} : ∀ {d : List (Text × α)}, x ∈ (setKw k v d).map Prod.fst → x = k ∨ x ∈ d.map Prod.fst
  | [], h => by simpa [setKw] using h
  | (k', v') :: d, h => by
    unfold setKw at h
    split at h
    · rename_i hk
      rw [List.map_cons, List.mem_cons] at h
      rcases h with h | h
      · exact .inl h
      · exact .inr (List.mem_cons_of_mem _ h)
    · rw [List.map_cons, List.mem_cons] at h
      rcases h with h | h
      · exact .inr (by rw [h]; exact List.mem_cons_self)
      · rcases mem_keys_setKw h with h | h
        · exact .inl h
        · exact .inr (List.mem_cons_of_mem _ h)

theorem nodup_setKw {α : Type} {k : Text} {v : α} : ∀ {d : List (Text × α)}, (d.map Prod.fst).Nodup → ((setKw k v d).map Prod.fst).Nodup
  | [], _ => by simp [setKw]
  | (k', v') :: d, h => by
    rw [List.map_cons, List.nodup_cons] at h
    unfold setKw
    split
    · rename_i hk
      rw [List.map_cons, List.nodup_cons]
      exact ⟨by rw [← hk]; exact h.1, h.2⟩
    · rename_i hk
      rw [List.map_cons, List.nodup_cons]
      refine ⟨fun hm => ?_, nodup_setKw h.2⟩
      rcases mem_keys_setKw hm with e | e
      · exact hk e
      · exact h.1 e

theorem childVals_nodup : ∀ {cs : List Elem} {d : List (Text × J)}, (d.map Prod.fst).Nodup → ((childVals cs d).map Prod.fst).Nodup
  | [], d, h => by rw [childVals]; exact h
  | .mk t a x c :: cs, d, h => by rw [childVals]; exact childVals_nodup (nodup_setKw h)

theorem setIn_keys {k : String} {ks : List String} {v j r : J} (h : setIn (k :: ks) v j = .ok r) (hj : Keys j) : Keys r := by
  have key : ∀ {c : J}, setItem k c j = .ok r → Keys r := by
    intro c hs
    cases j with
    | dict d =>
      unfold setItem at hs
      cases hs
      intro d' e
      cases e
      exact nodup_setKw (hj d rfl)
    | _ => exact absurd hs (by simp [setItem])
  cases ks with
  | nil => exact key h
  | cons k' ks =>
    unfold setIn at h
    simp only [bind, Except.bind] at h
    split at h
    · exact absurd h (by simp)
    · split at h
      · exact absurd h (by simp)
      · exact key h

theorem frame_children {env : Env} {e : Elem} {h w : ℚ} {d : Option (Text × Text)} (hf : Frame env e h w d) : children e ≠ [] := by
  obtain ⟨x, hx, _⟩ := hf.height
  cases hx with
  | child hm _ _ _ => intro h0; rw [h0] at hm; exact absurd hm List.not_mem_nil

theorem at_split {k : String} {ks : List String} {e x : Elem} (h : At (k :: ks) e x) : ∃ c, At [k] e c ∧ At ks c x := by
  cases h with
  | child hm ht hu h => exact ⟨_, .child hm ht hu (.here _), h⟩

theorem at_append {ks : List String} {k : String} {e x : Elem} (h : At (ks ++ [k]) e x) : ∃ c, At ks e c ∧ At [k] c x := by
  induction ks generalizing e with
  | nil => exact ⟨e, .here e, h⟩
  | cons a ks ih =>
    cases h with
    | child hm ht hu h =>
      obtain ⟨c, h1, h2⟩ := ih h
      exact ⟨c, .child hm ht hu h1, h2⟩

theorem at_parent {k : String} {e x : Elem} (h : At [k] e x) : elemVal e = .dict (childVals (children e) []) := by
  cases h with
  | child hm _ _ _ => exact elemVal_children (by intro h0; rw [h0] at hm; exact absurd hm List.not_mem_nil)

theorem tiffMeta_frame {env : Env} {t : Tiff} {e : Elem} {h w : ℚ} {d : Option (Text × Text)} (hx : t.xml = some e) (hf : Frame env e h w d) :
    ∃ j, tiffMeta env t = .ok j ∧ Frm env j h w (max (h * t.rows) (w * t.cols)) d ∧ Keys j ∧
      ∀ p : List String, ¬ ["acquisition", "scan", "fieldSize"] <+: p → ¬ p <+: ["acquisition", "scan", "fieldSize"] →
        getIn p j = getIn p (elemVal e) := by
  have hne := frame_children hf
  have hval := elemVal_children hne
  obtain ⟨xh, hxh, lh⟩ := hf.height
  obtain ⟨xw, hxw, lw⟩ := hf.width
  obtain ⟨xd, hxd, hcd⟩ := hf.detectors
  obtain ⟨sc, hsc, hsd⟩ := at_append (ks := ["acquisition", "scan"]) hxd
  have gscan := getIn_at hsc
  rw [at_parent hsd] at gscan
  have ih := getIn_at hxh
  have iw := getIn_at hxw
  rw [getIn_one] at ih iw
  obtain ⟨j, h1, h2, ⟨dj, h3, h3'⟩, h4⟩ := setIn_ok (ks := ["acquisition", "scan"]) (k := "fieldSize")
    (v := .num (max (h * t.rows) (w * t.cols))) gscan
  have keep : ∀ k : String, k ≠ "acquisition" → item k j = item k (elemVal e) := by
    intro k hk
    rw [← getIn_one, ← getIn_one]
    apply h4
    · rintro ⟨s, hs⟩
      simp at hs
    · rintro ⟨s, hs⟩
      simp at hs
      exact hk hs.1
  have hm : tiffMeta env t = .ok j := by
    unfold tiffMeta
    rw [hx]
    have hmd : metadataDict e = .ok (elemVal e) := by
      have hr := hf.root
      cases e with
      | mk tg a x c =>
        unfold metadataDict
        exact if_pos hr
    simp only [hmd, bind, Except.bind, ih, iw, length_value lh, length_value lw]
    exact h1
  refine ⟨j, hm, ⟨⟨dj, h3, h3'⟩, ⟨_, ?_, length_value lh⟩, ⟨_, ?_, length_value lw⟩, ⟨childVals (children xd) [], ?_⟩, h2, ?_⟩, ?_, h4⟩
  · rw [keep _ (by decide)]; exact ih
  · rw [keep _ (by decide)]; exact iw
  · rw [h4 _ (by decide) (by decide), getIn_at hxd, elemVal_children hcd]
  · rw [← dated_value hne hf.date]
    exact dateTime_congr hval h3 (by rw [getIn_one, getIn_one]; exact keep _ (by decide))
  · refine setIn_keys h1 ?_
    rw [hval]
    intro d' e'
    cases e'
    exact childVals_nodup (by simp)

theorem fits_pos {bs : List UInt8} (h : bs ≠ []) : bs.length ≠ 0 := by simpa using h

theorem reads_tiff {env : Env} {bs : List UInt8} {t : Tiff} {j : J} (hb : Fits bs) (hne : bs ≠ []) (ht : env.tiff bs = .ok t) (hj : tiffMeta env t = .ok j) :
    Reads (readTiff env) (listOf (fun b => [b]) bs) (j, some t) := by
  unfold listOf readTiff
  rw [flatMap_single]
  refine Reads.bind (reads_u32 hb) ?_
  rw [if_neg (fits_pos hne)]
  exact Reads.last (reads_take rfl) (Reads.bind0 (Reads.lift ht) (Reads.bind0 (Reads.lift hj) (Reads.pure _)))

theorem reads_no_tiff (env : Env) : Reads (readTiff env) (listOf (fun b => [b]) []) (.none, none) := by
  unfold listOf readTiff
  refine Reads.bind (reads_u32 (n := 0) (by norm_num)) ?_
  exact Reads.pure _

/-- The dictionary of the common part. -/
def commonDict (env : Env) (v : Nat) (c : Common) (t : Text) (g : List (Text × J)) : List (Text × J) :=
  update (update (edsDict env v c.eds t g) [("offset".toList, .num (env.f64 c.offset.toNat)), ("dispersion".toList, .num (env.f64 c.dispersion.toNat))])
    (restList v c)

/-- Metadata without a picture. -/
def freshMeta (eds : J) : J :=
  .dict [("acquisition".toList, .dict [("scan".toList, .dict [("detectors".toList, .dict [("EDS".toList, eds)])])])]

/-- The metadata of the cut-out with that of the spectrum. -/
structure Cut (env : Env) (c : Common) (eds : J) (om : J) : Prop where
  found : getIn edsPath om = .ok eds
  dict : ∃ d, om = .dict d ∧ d ≠ []
  keys : Keys om
  date : ∃ r, dateTime om = .ok r
  fresh : (c.cutout = [] ∨ ∃ t, env.tiff c.cutout = .ok t ∧ t.xml = none) → om = freshMeta eds
  kept : ∀ t e, c.cutout ≠ [] → env.tiff c.cutout = .ok t → t.xml = some e → ∀ p : List String,
    ¬ ["acquisition", "scan", "fieldSize"] <+: p → ¬ p <+: ["acquisition", "scan", "fieldSize"] → ¬ edsPath <+: p → ¬ p <+: edsPath →
    getIn p om = getIn p (elemVal e)

theorem withEds_none (eds : J) : withEds .none eds = .ok (freshMeta eds) := rfl

theorem withEds_empty (eds : J) : withEds (.dict []) eds = .ok (freshMeta eds) := by
  unfold withEds truthy
  rw [if_neg (by simp)]
  rfl

theorem cut_fresh {env : Env} {c : Common} {eds : J} (h : c.cutout = [] ∨ ∃ t, env.tiff c.cutout = .ok t ∧ t.xml = none) :
    Cut env c eds (freshMeta eds) where
  found := rfl
  dict := ⟨_, rfl, by simp⟩
  keys := by intro d e; cases e; simp
  date := ⟨none, rfl⟩
  fresh := fun _ => rfl
  kept := by
    intro t e hc ht hx
    rcases h with h | ⟨t', h1, h2⟩
    · exact absurd h hc
    · rw [h1] at ht
      cases ht
      rw [h2] at hx
      exact absurd hx (by simp)

theorem cut_frame {env : Env} {c : Common} {eds j : J} {t : Tiff} {e : Elem} {h w f : ℚ} {d : Option (Text × Text)} (hc : c.cutout ≠ [])
    (ht : env.tiff c.cutout = .ok t) (hx : t.xml = some e) (hj : Frm env j h w f d) (hk : Keys j)
    (hkeep : ∀ p : List String, ¬ ["acquisition", "scan", "fieldSize"] <+: p → ¬ p <+: ["acquisition", "scan", "fieldSize"] →
        getIn p j = getIn p (elemVal e)) :
    ∃ om, withEds j eds = .ok om ∧ Cut env c eds om := by
  obtain ⟨dd, hdet⟩ := hj.det
  obtain ⟨dj, rfl, hdj⟩ := hj.dict
  obtain ⟨om, h1, h2, ⟨d', h3, h3'⟩, h4⟩ := setIn_ok (ks := ["acquisition", "scan", "detectors"]) (k := "EDS") (v := eds) hdet
  have ht' : truthy (.dict dj) = true := by unfold truthy; simpa using hdj
  have hw : withEds (.dict dj) eds = .ok om := by
    unfold withEds
    rw [if_pos ht']
    exact h1
  refine ⟨om, hw, ⟨h2, ⟨d', h3, h3'⟩, setIn_keys h1 hk, ?_, ?_, ?_⟩⟩
  · refine ⟨d, ?_⟩
    rw [← hj.date]
    exact dateTime_congr rfl h3 (h4 _ (by decide) (by decide))
  · rintro (h0 | ⟨t', h5, h6⟩)
    · exact absurd h0 hc
    · rw [ht] at h5
      cases h5
      rw [hx] at h6
      exact absurd h6 (by simp)
  · intro t' e' _ ht2 hx2 p p1 p2 p3 p4
    rw [ht] at ht2
    cases ht2
    rw [hx] at hx2
    cases hx2
    rw [h4 p p3 p4]
    exact hkeep p p1 p2

theorem reads_after {env : Env} {v : Nat} {c : Common} {t : Text} {g : List (Text × J)} (hc : c.Ok) :
    Reads (commonRest v (update (edsDict env v c.eds t g) [("offset".toList, .num (env.f64 c.offset.toNat)),
      ("dispersion".toList, .num (env.f64 c.dispersion.toNat))]))
      (listOf (fun b => [b]) c.included ++ listOf (fun b => [b]) c.excluded ++ listOf Spec.Phenom.signed c.bins ++
  listOf (fun o => [o.1, o.2.1, o.2.2]) c.oxides ++ Spec.Phenom.flag c.auto ++ Spec.Phenom.signed c.order ++ listOf (fun o => [o.1, o.2]) c.families ++
  (if 2 ≤ v then [c.drift] else []) ++ (if 4 ≤ v then listOf (fun b => [b]) c.ignored else [])) (commonDict env v c t g) := reads_rest hc

attribute [local irreducible] update edsDict restList commonDict edsMetadata commonRest in
theorem reads_common {env : Env} {v : Nat} {am : J} {c : Common} {t : Text} {g : List (Text × J)} (hc : c.Ok) (hcut : Cutout env c.cutout)
    (hu : env.utf8 c.eds.instrument = .ok t) (hg : v = 0 → Old env am g) :
    ∃ om, Reads (commonAnalysis env v am) (Spec.Phenom.common v c) (om, c.counts) ∧ Cut env c (.dict (commonDict env v c t g)) om := by
  have tail : ∀ {j : J} {x : Option Tiff} {om : J}, Reads (readTiff env) (listOf (fun b => [b]) c.cutout) (j, x) →
      withEds j (.dict (commonDict env v c t g)) = .ok om → Reads (commonAnalysis env v am) (Spec.Phenom.common v c) (om, c.counts) := by
    intro j x om h1 h2
    unfold Spec.Phenom.common commonAnalysis
    have hrest := reads_after (env := env) (v := v) hc (t := t) (g := g)
    simp only [List.append_assoc] at hrest ⊢
    refine Reads.bind h1 ?_
    have hs := reads_spectrum env c.offset c.dispersion hc.counts
    have hb := Reads.bind (f := fun sum => do
      let eds ← edsMetadata env v am
      let eds ← commonRest v (update eds [("offset".toList, .num sum.1), ("dispersion".toList, .num sum.2.1)])
      let metadata ← Verif.Phenom.lift (withEds j (.dict eds))
      pure (metadata, sum.2.2)) hs (Reads.bind (reads_eds hc.eds hu hg) (Reads.last hrest (Reads.bind0 (Reads.lift h2) (Reads.pure _))))
    simp only [List.append_assoc] at hb
    exact hb
  rcases hcut with h0 | ⟨tf, hfit, hne, htf, hx⟩
  · refine ⟨freshMeta (.dict (commonDict env v c t g)), ?_, cut_fresh (.inl h0)⟩
    refine tail (j := .none) (x := none) ?_ (withEds_none _)
    rw [h0]
    exact reads_no_tiff env
  · cases hxml : tf.xml with
    | none =>
      refine ⟨freshMeta (.dict (commonDict env v c t g)), ?_, cut_fresh (.inr ⟨tf, htf, hxml⟩)⟩
      refine tail (j := .dict []) (x := some tf) ?_ (withEds_empty _)
      exact reads_tiff hfit hne htf (by unfold tiffMeta; rw [hxml])
    | some e =>
      obtain ⟨h, w, d, hf⟩ := hx e hxml
      obtain ⟨j, hm, hj, hk, hkeep⟩ := tiffMeta_frame hxml hf
      obtain ⟨om, h1, h2⟩ := cut_frame (eds := .dict (commonDict env v c t g)) hne htf hxml hj hk hkeep
      exact ⟨om, tail (reads_tiff hfit hne htf hm) h1, h2⟩

end Verif.Lemmas.Phenom
