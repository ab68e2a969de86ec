import Verif.Lemmas.Bruker
/-! Signals of Bruker files: C135 (maps), C136 (images), C137 (single spectra). -/
namespace Verif.Props.Bruker
open Verif Verif.Bruker
open Verif.Xml (V)

theorem okBind {α β : Type} {x : Py α} {f : α → Py β} {r : β} (h : (x >>= f) = .ok r) :
    ∃ a, x = .ok a ∧ f a = .ok r := by
  cases x with
  | error e => cases h
  | ok a => exact ⟨a, rfl, h⟩

theorem forall₂_mapM {α β : Type} {f : α → Py β} {R : α → β → Prop} (hf : ∀ a b, f a = .ok b → R a b) :
    ∀ {l : List α} {r : List β}, l.mapM f = .ok r → List.Forall₂ R l r
  | [], r, h => by
    rw [List.mapM_nil] at h
    injection h with h
    subst h
    exact .nil
  | a :: l, r, h => by
    rw [List.mapM_cons] at h
    obtain ⟨b, hb, h⟩ := okBind h
    obtain ⟨bs, hbs, h⟩ := okBind h
    injection h with h
    subst h
    exact .cons (hf a b hb) (forall₂_mapM hf hbs)

theorem mapM_some {α β : Type} {f : α → Py β} : ∀ {l : List α}, (∀ a ∈ l, ∃ b, f a = .ok b) → ∃ r, l.mapM f = .ok r
  | [], _ => ⟨[], rfl⟩
  | a :: l, h => by
    obtain ⟨b, hb⟩ := h a List.mem_cons_self
    obtain ⟨r, hr⟩ := mapM_some fun x hx => h x (List.mem_cons_of_mem _ hx)
    exact ⟨b :: r, by rw [List.mapM_cons, hb, hr]; rfl⟩

/-! ### C135: maps -/

/-- C135: the number of channels is that of the cut-off: the channel nearest to the energy (of the user or of the beam),
or up to the last channel with counts, or all. -/
theorem C135_cutoff {h : Header} {s : Spectrum} {c : Cutoff} {n : Int} (hn : nChannels h s c = .ok n) :
    ChannelsFor h s n c := by
  cases c with
  | none => injection hn with hn; exact hn.symm
  | «at» e => exact nearest_of hn
  | zealous =>
    unfold nChannels at hn
    cases hl : lastNonZero s.data with
    | error e => rw [hl] at hn; cases hn
    | ok i =>
      rw [hl] at hn
      injection hn with hn
      have hs := lastNonZero_ok hl
      obtain ⟨⟨v, hv, hi⟩, hlast⟩ := hs
      refine ⟨⟨v, hv, i, hn.symm, hi⟩, fun j v hj hv => hlast j v ?_ hv⟩
      have hn' : (i : Int) + 1 = n := hn
      omega
  | auto =>
    unfold nChannels at hn
    dsimp only at hn
    unfold minChannels at hn
    cases hh : h.hv with
    | none =>
      rw [hh] at hn
      injection hn with hn
      refine ⟨?_, fun _ => hn.symm, ?_⟩
      · intro v hv; rw [hh] at hv; cases hv
      · intro v hv; rw [hh] at hv; cases hv
    | some v =>
      rw [hh] at hn
      dsimp only at hn
      split at hn
      · rename_i hc
        refine ⟨?_, ?_, ?_⟩
        · intro w hw _ _
          rw [hh] at hw
          injection hw with hw
          subst hw
          exact nearest_of hn
        · intro e; rw [hh] at e; cases e
        · intro w hw hor
          rw [hh] at hw
          injection hw with hw
          subst hw
          rcases hor with hor | hor
          · exact absurd hc.1 (not_lt.2 hor)
          · exact absurd hc.2 (not_lt.2 hor)
      · rename_i hc
        injection hn with hn
        refine ⟨?_, ?_, ?_⟩
        · intro w hw h1 h2
          rw [hh] at hw
          injection hw with hw
          subst hw
          exact absurd ⟨h1, h2⟩ hc
        · intro e; rw [hh] at e; cases e
        · intro w hw hor
          exact hn.symm

/-- The elements and lines of a map. -/
def ElementsOf (h : Header) {β : Type} (m : MapSignal β) : Prop :=
  m.elements.Pairwise Before ∧ m.elements.Nodup ∧ (∀ t, t ∈ m.elements ↔ t ∈ h.regions.map (·.1)) ∧
  m.lines.Pairwise Before ∧
  ((h.regions.map (·.1)).Nodup →
    m.lines.Perm (h.regions.map fun r => r.1 ++ '_' :: family (r.2.getD "Ka".toList)))

theorem elementsOf {h : Header} {β : Type} {m : MapSignal β}
    (he : m.elements = sortTexts ((elements h.regions []).map (·.1)))
    (hl : m.lines = sortTexts (xrayLines (elements h.regions []))) : ElementsOf h m := by
  have hk := elements_keys h.regions [] (by simp)
  refine ⟨?_, ?_, fun t => ?_, ?_, fun hd => ?_⟩
  · rw [he]; exact sort_sorted _
  · rw [he]; exact (sort_perm _).nodup_iff.2 hk.1
  · rw [he, (sort_perm _).mem_iff, hk.2]; simp
  · rw [hl]; exact sort_sorted _
  · rw [hl]
    refine (sort_perm _).trans ?_
    rw [elements_distinct _ _ hd (by simp), List.nil_append]
    unfold xrayLines
    rw [List.map_map]
    refine List.Perm.of_eq (List.map_congr_left fun r _ => ?_)
    show r.1 ++ '_' :: parseLine _ = _
    rw [parseLine_eq]

theorem mapOf_ok {β : Type} {parse : Nat → List Nat → Nat → Py β} {h : Header} {img : ImageNode}
    {spectra : List (Nat × Spectrum)} {instrument : Option Text} {filename : Text} {ds : Nat} {cut : Cutoff} {i : Nat}
    {m : MapSignal β} (heq : h.dx.getD 1 = h.dy.getD 1)
    (hm : mapOf parse h img spectra instrument filename ds cut i = .ok m) :
    ∃ s, spectra.lookup i = some s ∧ ∃ n : Nat, ChannelsFor h s n cut ∧
      IsMap parse h img s instrument filename ds i n m ∧ ElementsOf h m := by
  unfold mapOf at hm
  cases hs : spectra.lookup i with
  | none => rw [hs] at hm; cases hm
  | some s =>
    rw [hs] at hm
    dsimp only at hm
    obtain ⟨n, hn, hm⟩ := okBind hm
    obtain ⟨shape, hsh, hm⟩ := okBind hm
    obtain ⟨data, hdata, hm⟩ := okBind hm
    obtain ⟨det, hdet, hm⟩ := okBind hm
    injection hm with heqm
    unfold mapShape at hsh
    split at hsh
    · cases hsh
    · rename_i hds
      split at hsh
      · cases hsh
      · rename_i hneg
        injection hsh with hsh
        obtain ⟨k, hk⟩ := Int.eq_ofNat_of_zero_le (not_lt.1 hneg)
        subst hk
        refine ⟨s, rfl, k, C135_cutoff hn, ?_, ?_⟩
        · subst hsh
          rw [Int.toNat_natCast] at hdata
          have hpos : 0 < ds := Nat.pos_of_ne_zero hds
          subst heqm
          refine ⟨_, _, blocks_ceil hpos, blocks_ceil hpos, hdata, ⟨_, _, _, rfl, rfl, rfl, rfl, rfl, rfl, rfl, rfl,
            ?_, rfl, rfl, ?_, ?_, rfl, ?_, rfl, rfl, rfl, rfl⟩, ?_, ?_, rfl, ?_, ?_, rfl, ?_, ?_, ?_, ?_, ?_, rfl, rfl,
            rfl, ?_, ?_⟩
          · show yRes h * ds = _
            rw [heq]; rfl
          · intro e
            have : units h = "µm".toList := if_pos e
            exact ⟨this, this⟩
          · intro e
            have : units h = "pix".toList := if_neg (by rw [e]; exact Bool.false_ne_true)
            exact ⟨this, this⟩
          · exact Int.toNat_natCast k
          · intro t ht; subst ht; rfl
          · intro v hi hv
            subst hi
            refine ⟨fun hlt => ?_, fun hle => ?_⟩
            · show guessMode h.hv = _
              rw [hv]; exact if_pos hlt
            · show guessMode h.hv = _
              rw [hv]; exact if_neg (not_lt.2 hle)
          · intro v hv
            show beamEnergy h s = _
            unfold beamEnergy
            rw [hv]
          · intro hv
            show beamEnergy h s = _
            unfold beamEnergy
            rw [hv]
          all_goals first
            | (intro t ht; show h.name.getD _ = t; rw [ht]; rfl)
            | (intro ht; show h.name.getD _ = _; rw [ht]; rfl)
            | skip
          all_goals unfold detectorNode at hdet
          · split at hdet
            · injection hdet with hdet; subst hdet; rfl
            · injection hdet with hdet; subst hdet; rfl
            · cases hdet
          · split at hdet
            · injection hdet with hdet; subst hdet; rfl
            · injection hdet with hdet; subst hdet; rfl
            · cases hdet
          · split at hdet
            · injection hdet with hdet; subst hdet; rfl
            · injection hdet with hdet; subst hdet; rfl
            · cases hdet
          · show some (realTime h img.width) = _
            unfold realTime
            congr 1
            ring
          · intro r l hr hl
            rw [hr, hl] at hdet
            injection hdet with hdet
            subst hdet
            rfl
        · subst heqm
          exact elementsOf rfl rfl

/-- C135 (partial): the maps read are the ones asked for, each with its data decoded for the shape it is given, its axes
with sizes, scales and units, the beam energy, the detector, the dates and the elements. Missing: the width is scaled
with the step of the height, so the two must be equal, see `C135_fails_width_scale`; maps with numbers from ten, see
`C135_fails_ten`; several lines of an element, see `C135_fails_two_lines`. -/
theorem C135_maps_partial {β : Type} {parse : Nat → List Nat → Nat → Py β} {h : Header} {img : ImageNode}
    {spectra : List (Nat × Spectrum)} {instrument : Option Text} {filename : Text} {ds : Nat} {cut : Cutoff}
    {available : List Nat} {index : Index} {ms : List (MapSignal β)} (heq : h.dx.getD 1 = h.dy.getD 1)
    (hm : maps parse h img spectra instrument filename ds cut available index = .ok ms) :
    ∃ is, Chosen available index is ∧ List.Forall₂ (fun i m => ∃ s, spectra.lookup i = some s ∧
      ∃ n : Nat, ChannelsFor h s n cut ∧ IsMap parse h img s instrument filename ds i n m ∧ ElementsOf h m) is ms := by
  unfold maps at hm
  obtain ⟨is, his, hm⟩ := okBind hm
  refine ⟨is, selected_iff.1 his, forall₂_mapM ?_ hm⟩
  intro i m hi
  exact mapOf_ok heq hi

/-- A spectrum that the cut-off can be applied to. -/
def Readable (h : Header) (s : Spectrum) : Cutoff → Prop
  | .none => True
  | .at e => 0 < s.scale ∧ s.offset ≤ e
  | .zealous => ∃ v ∈ s.data, v ≠ 0
  | .auto => 0 < s.scale ∧ ∀ v, h.hv = some v → s.offset ≤ v

theorem energy_nonneg {s : Spectrum} {e : Rat} (h1 : 0 < s.scale) (h2 : s.offset ≤ e) :
    ∃ n, energyToChannel s e = .ok n ∧ 0 ≤ n :=
  ⟨_, if_neg (ne_of_gt h1), roundEven_nonneg (div_nonneg (sub_nonneg.2 h2) h1.le)⟩

theorem lastNonZero_some : ∀ {l : List Nat}, (∃ v ∈ l, v ≠ 0) → ∃ i, lastNonZero l = .ok i
  | [], ⟨_, hv, _⟩ => by cases hv
  | a :: l, ⟨v, hv, hne⟩ => by
    unfold lastNonZero
    cases hl : lastNonZero l with
    | ok i => exact ⟨i + 1, rfl⟩
    | error e =>
      rcases List.mem_cons.1 hv with hv | hv
      · subst hv
        exact ⟨0, if_pos hne⟩
      · obtain ⟨i, hi⟩ := lastNonZero_some ⟨v, hv, hne⟩
        rw [hi] at hl
        cases hl

theorem channels_some {h : Header} {s : Spectrum} {c : Cutoff} (hr : Readable h s c) :
    ∃ n, nChannels h s c = .ok n ∧ 0 ≤ n := by
  cases c with
  | none => exact ⟨_, rfl, by omega⟩
  | «at» e => exact energy_nonneg hr.1 hr.2
  | zealous =>
    obtain ⟨i, hi⟩ := lastNonZero_some hr
    refine ⟨(i : Int) + 1, ?_, by omega⟩
    unfold nChannels
    dsimp only
    rw [hi]
    rfl
  | auto =>
    unfold nChannels
    dsimp only
    unfold minChannels
    cases hh : h.hv with
    | none => exact ⟨_, rfl, by omega⟩
    | some v =>
      dsimp only
      split
      · exact energy_nonneg hr.1 (hr.2 v hh)
      · exact ⟨_, rfl, by omega⟩

/-- C135: the maps asked for are read, when each has a spectrum, the factor is positive, and the maps are decoded. -/
theorem C135_reads {β : Type} {parse : Nat → List Nat → Nat → Py β} {h : Header} {img : ImageNode}
    {spectra : List (Nat × Spectrum)} (instrument : Option Text) (filename : Text) {ds : Nat} {cut : Cutoff}
    {available : List Nat} {index : Index} {is : List Nat} (hc : Chosen available index is) (hds : 0 < ds)
    (hp : ∀ i shape, ∃ b, parse i shape ds = .ok b)
    (hs : ∀ i ∈ is, ∃ s, spectra.lookup i = some s ∧ Readable h s cut ∧ (s.realTime.isSome → s.lifeTime.isSome)) :
    ∃ ms, maps parse h img spectra instrument filename ds cut available index = .ok ms ∧ ms.length = is.length := by
  obtain ⟨ms, hms⟩ : ∃ ms, is.mapM (mapOf parse h img spectra instrument filename ds cut) = .ok ms := by
    refine mapM_some fun i hi => ?_
    obtain ⟨s, hl, hr, ht⟩ := hs i hi
    obtain ⟨n, hn, hpos⟩ := channels_some hr
    unfold mapOf
    rw [hl]
    dsimp only
    rw [hn]
    have e : mapShape img.height img.width ds n = .ok [ceilDiv img.height ds, ceilDiv img.width ds, n.toNat] := by
      unfold mapShape
      rw [if_neg (by omega), if_neg (by omega)]
    obtain ⟨b, hb⟩ := hp i [ceilDiv img.height ds, ceilDiv img.width ds, n.toNat]
    obtain ⟨d, hd⟩ : ∃ d, detectorNode s = .ok d := by
      unfold detectorNode
      cases hr : s.realTime with
      | none => exact ⟨_, rfl⟩
      | some r =>
        cases hl : s.lifeTime with
        | none => rw [hr, hl] at ht; exact absurd (ht rfl) Bool.false_ne_true
        | some l => exact ⟨_, rfl⟩
    have e' : ∀ {γ : Type} (f : List Nat → Py γ), (mapShape img.height img.width ds n >>= f) =
        f [ceilDiv img.height ds, ceilDiv img.width ds, n.toNat] := fun f => by rw [e]; rfl
    have b' : ∀ {γ : Type} (f : β → Py γ), (parse i [ceilDiv img.height ds, ceilDiv img.width ds, n.toNat] ds >>= f) =
        f b := fun f => by rw [hb]; rfl
    have d' : ∀ {γ : Type} (f : Detector → Py γ), (detectorNode s >>= f) = f d := fun f => by rw [hd]; rfl
    have n' : ∀ {γ : Type} (f : Int → Py γ), ((Except.ok n : Py Int) >>= f) = f n := fun f => rfl
    rw [n', e', b', d']
    exact ⟨_, rfl⟩
  refine ⟨ms, ?_, (forall₂_mapM (R := fun _ _ => True) (fun _ _ _ => trivial) hms).length_eq.symm⟩
  unfold maps
  rw [selected_iff.2 hc]
  exact hms

/-- C135: an index that is not in the file is refused. -/
theorem C135_rejects_index {β : Type} (parse : Nat → List Nat → Nat → Py β) (h : Header) (img : ImageNode)
    (spectra : List (Nat × Spectrum)) (instrument : Option Text) (filename : Text) (ds : Nat) (cut : Cutoff)
    {available : List Nat} {i : Nat} (hi : i ∉ available) :
    maps parse h img spectra instrument filename ds cut available (.at i) = .error .indexError := by
  unfold maps selected
  dsimp only
  rw [if_neg hi]
  rfl

/-- C135: a factor of zero is refused: no map is read. -/
theorem C135_rejects_zero {β : Type} (parse : Nat → List Nat → Nat → Py β) (h : Header) (img : ImageNode)
    (spectra : List (Nat × Spectrum)) (instrument : Option Text) (filename : Text) (cut : Cutoff)
    (available : List Nat) (i : Nat) :
    ∃ e, maps parse h img spectra instrument filename 0 cut available (.at i) = .error e := by
  cases hm : maps parse h img spectra instrument filename 0 cut available (.at i) with
  | error e => exact ⟨e, rfl⟩
  | ok ms =>
    exfalso
    unfold maps at hm
    obtain ⟨is, his, hm⟩ := okBind hm
    have := (selected_iff.1 his).1
    subst this
    have h2 := forall₂_mapM (R := fun _ _ => False) (fun i m hi => by
      unfold mapOf at hi
      cases hs : spectra.lookup i with
      | none => rw [hs] at hi; cases hi
      | some s =>
        rw [hs] at hi
        dsimp only at hi
        obtain ⟨n, hn, hi⟩ := okBind hi
        obtain ⟨shape, hsh, hi⟩ := okBind hi
        cases hsh) hm
    cases h2 with
    | cons hf _ => exact hf

/-- C135: the numbers of the maps are the digits after `SpectrumData` in the names of the entries, in their order. -/
theorem C135_indexes (es : List (Nat ⊕ Text)) (h : ∀ e ∈ es, IsEntry e) :
    availableIndexes (es.map entryName) = .ok (mapNumbers es) := available_ok es h

example : availableIndexes ["Header".toList, "SpectrumData1".toList, "SpectrumPositions1".toList,
    "SpectrumData0".toList] = .ok [1, 0] := by
  decide +kernel

/-! ### C136: images -/

/-- C136: base64 of RFC 4648 is decoded, whatever other characters are in between. -/
theorem C136_base64 (bs : List UInt8) (t : Text) (h : t.filter isBase = encode bs) : decode t 0 0 0 = .ok bs := by
  rw [decode_filter, h, decode_encode]

/-- C136 (partial): the pictures are those of the planes of the image without a name that are not blank, with pixels,
size, title, scales and units, then, from version 2 files, those of the overview. Missing: files without such an
image, see `C136_fails_no_unnamed`; overview images after the first, see `C136_fails_overviews`; blank planes. -/
theorem C136_images_partial {h : Header} {n : ImageNode} (filename : Text) (hn : IsMain h n)
    {ps : List (Plane × List Nat)} (hp : n.planes = ps.map (·.1)) (hh : ∀ p ∈ ps, PlaneHolds n p.1 p.2) :
    (h.version ≠ 2 → images h filename = .ok (picturesOf h filename n ps)) ∧
    (h.overviews = [] → images h filename = .ok (picturesOf h filename n ps)) ∧
    (h.version = 2 → ∀ m rest qs, h.overviews = m :: rest → m.planes = qs.map (·.1) →
      (∀ q ∈ qs, PlaneHolds m q.1 q.2) →
      images h filename = .ok (picturesOf h filename n ps ++ picturesOf h filename m qs)) := by
  obtain ⟨a, name, b, hi, hname, hb⟩ := hn
  have e1 : unnamed h.images = some n := by rw [hi]; exact unnamed_iff hname hb
  have e2 := pictures_ok h filename n ps hh
  have key : ∀ r, overviewPictures h filename = .ok r →
      images h filename = .ok (picturesOf h filename n ps ++ r) := by
    intro r hr
    unfold images
    rw [e1]
    dsimp only
    rw [hp, e2]
    show (overviewPictures h filename >>= _) = _
    rw [hr]
    rfl
  refine ⟨fun hv => ?_, fun ho => ?_, fun hv m rest qs ho hq hqs => ?_⟩
  · rw [key [] (by unfold overviewPictures; rw [if_neg hv]), List.append_nil]
  · rw [key [] (by unfold overviewPictures; rw [ho]; split <;> rfl), List.append_nil]
  · refine key _ ?_
    unfold overviewPictures
    rw [if_pos hv, ho]
    dsimp only
    rw [hq]
    exact pictures_ok h filename m qs hqs

/-- C136: a plane with a number of pixels that is not that of the image is refused, unless it is blank. -/
theorem C136_rejects_size (h : Header) (filename : Text) (n : ImageNode) {p : Plane} {ps : List Plane} {vs : List Nat}
    (hw : 0 < n.itemSize) (hv : ∀ v ∈ vs, v < 256 ^ n.itemSize)
    (hd : p.data.filter isBase = encode (vs.flatMap (leBytes n.itemSize)))
    (hne : ∃ v ∈ vs, v ≠ 0) (hl : vs.length ≠ n.height * n.width) :
    pictures h filename n (p :: ps) = .error .valueError := by
  have e1 := C136_base64 _ _ hd
  have e2 := values_ok hw vs (vs.flatMap (leBytes n.itemSize)).length hv (by
    rw [length_values]; exact Nat.le_mul_of_pos_right _ hw)
  unfold pictures
  rw [e1]
  show (values n.itemSize _ _ >>= _) = _
  rw [e2]
  show (if vs.all (· == 0) = true then _ else _) = _
  rw [if_neg, if_neg hl]
  intro ha
  obtain ⟨v, hv, hz⟩ := hne
  have := List.all_eq_true.1 ha v hv
  exact hz (by simpa using this)

/-- C136: what is read is chosen: images, maps, or both. -/
theorem C136_select {β : Type} {parse : Nat → List Nat → Nat → Py β} {h : Header} {es : List (Nat ⊕ Text)}
    {spectra : List (Nat × Spectrum)} {instrument : Option Text} {filename : Text} {sel : Select} {ds : Nat}
    {cut : Cutoff} {index : Index} {img : ImageNode} {r : List Picture × List (MapSignal β)}
    (he : ∀ e ∈ es, IsEntry e) (hi : IsMain h img)
    (hr : bcfReader parse h (es.map entryName) spectra instrument filename sel ds cut index = .ok r) :
    (sel = .image → r.2 = [] ∧ images h filename = .ok r.1) ∧
    (sel = .map → r.1 = [] ∧
      maps parse h img spectra instrument filename ds cut (mapNumbers es) index = .ok r.2) ∧
    (sel = .all → images h filename = .ok r.1 ∧
      maps parse h img spectra instrument filename ds cut (mapNumbers es) index = .ok r.2) := by
  obtain ⟨a, name, b, hi, hname, hb⟩ := hi
  have e1 : unnamed h.images = some img := by rw [hi]; exact unnamed_iff hname hb
  unfold bcfReader at hr
  rw [C135_indexes es he] at hr
  obtain ⟨av, hav, hr⟩ := okBind hr
  obtain ⟨_, _, hr⟩ := okBind hr
  injection hav with hav
  subst hav
  rw [e1] at hr
  dsimp only at hr
  obtain ⟨pics, hp, hr⟩ := okBind hr
  cases sel with
  | image =>
    injection hr with hr
    subst hr
    exact ⟨fun _ => ⟨rfl, hp⟩, (fun e => by cases e), (fun e => by cases e)⟩
  | map =>
    obtain ⟨ms, hm, hr⟩ := okBind hr
    injection hr with hr
    subst hr
    exact ⟨fun e => (by cases e), fun _ => ⟨rfl, hm⟩, fun e => by cases e⟩
  | all =>
    obtain ⟨ms, hm, hr⟩ := okBind hr
    injection hr with hr
    subst hr
    exact ⟨fun e => (by cases e), fun e => (by cases e), fun _ => ⟨hp, hm⟩⟩

/-! ### C137: single spectra -/

theorem digit_not_space {c : Char} (h : isDigit c = true) : isSpace c = false := by
  have h' : 48 ≤ c.toNat ∧ c.toNat ≤ 57 := by simpa [isDigit] using h
  have q : ∀ k ∈ List.range 58, 48 ≤ k → isSpace (Char.ofNat k) = false := by decide +kernel
  have := q c.toNat (List.mem_range.2 (by omega)) h'.1
  rwa [Char.ofNat_toNat] at this

theorem strip_blanks {a b s : Text} (hne : s ≠ []) (ha : ∀ c ∈ a, isSpace c = true) (hb : ∀ c ∈ b, isSpace c = true)
    (hs : ∀ c ∈ s, isSpace c = false) : stripBy isSpace (a ++ s ++ b) = s := by
  have h1 : ∀ {a t : Text}, (∀ c ∈ a, isSpace c = true) → lstripBy isSpace (a ++ t) = lstripBy isSpace t := by
    intro a
    induction a with
    | nil => intro t _; rfl
    | cons c a ih =>
      intro t h
      show List.dropWhile isSpace (c :: (a ++ t)) = _
      rw [List.dropWhile_cons_of_pos (h c List.mem_cons_self)]
      exact ih fun d hd => h d (List.mem_cons_of_mem _ hd)
  unfold stripBy
  rw [List.append_assoc, h1 ha, lstripBy_id, rstripBy_append hb, rstripBy_id]
  · intro c hc; exact hs c (List.mem_of_getLast? hc)
  · intro c hc
    cases s with
    | nil => exact absurd rfl hne
    | cons d s =>
      rw [List.cons_append, List.head?_cons] at hc
      injection hc with hc
      exact hc ▸ hs d List.mem_cons_self

/-- C137: the counts are the numbers of the text, with blanks around them. -/
theorem C137_channels (l : List (Text × Nat × Text)) (hne : l ≠ [])
    (hb : ∀ e ∈ l, (∀ c ∈ e.1, isSpace c = true) ∧ (∀ c ∈ e.2.2, isSpace c = true)) :
    channels (List.intercalate [','] (l.map fun e => e.1 ++ decChars e.2.1 ++ e.2.2)) = .ok (l.map fun e => e.2.1) := by
  have comma : ∀ e ∈ l, ',' ∉ e.1 ++ decChars e.2.1 ++ e.2.2 := by
    intro e he hm
    rw [List.mem_append, List.mem_append] at hm
    rcases hm with (hm | hm) | hm
    · have := (hb e he).1 _ hm; exact absurd this (by decide)
    · have := decChars_digits _ _ hm; exact absurd this (by decide)
    · have := (hb e he).2 _ hm; exact absurd this (by decide)
  have hsplit : ∀ l : List (Text × Nat × Text), l ≠ [] → (∀ e ∈ l, ',' ∉ e.1 ++ decChars e.2.1 ++ e.2.2) →
      splitChar ',' (List.intercalate [','] (l.map fun e => e.1 ++ decChars e.2.1 ++ e.2.2)) =
        l.map fun e => e.1 ++ decChars e.2.1 ++ e.2.2 := by
    intro l
    induction l with
    | nil => intro h; exact absurd rfl h
    | cons e l ih =>
      intro _ h
      cases l with
      | nil =>
        rw [List.map_cons, List.map_nil, List.intercalate_singleton, splitChar_none (h e List.mem_cons_self)]
      | cons e' l =>
        rw [List.map_cons, List.map_cons, List.intercalate_cons_cons]
        have := ih (by simp) fun x hx => h x (List.mem_cons_of_mem _ hx)
        rw [List.map_cons] at this
        rw [List.append_assoc (_ ++ _ ++ _), List.singleton_append, splitChar_append (h e List.mem_cons_self), this]
  unfold channels
  rw [hsplit l hne comma]
  clear hsplit comma hne
  induction l with
  | nil => rfl
  | cons e l ih =>
    rw [List.map_cons, List.mapM_cons, ih fun x hx => hb x (List.mem_cons_of_mem _ hx)]
    dsimp only
    have hbe := hb e List.mem_cons_self
    rw [strip_blanks (decChars_ne_nil _) hbe.1 hbe.2 fun c hc => digit_not_space (decChars_digits _ c hc),
      if_pos ⟨decChars_ne_nil _, List.all_eq_true.2 (decChars_digits _)⟩, decVal_decChars]
    rfl

/-- C137 (partial): the signal of a spectrum has its counts, energies, mode, detector, date, name. Missing: spectra
without a date, see `C137_fails_no_date`; live time, see `C137_fails_no_life_time`; a single element, see
`C137_fails_one_element`. -/
theorem C137_spectrum_partial {α : Type} (filename : Text) (name : Option Text) (s : Spectrum)
    (elems : Option (List (Text × V α))) {date time : Text} (hs : s.stamp = some (date, time))
    (ht : s.realTime.isSome → s.lifeTime.isSome)
    (he : ∀ d, elems = some d → ∃ v, getKw "XmlClassName".toList d = some v) :
    ∃ r, spxReader filename name s (elems.map V.dict) = .ok r ∧ r.data = s.data ∧
      (r.axis.name = "Energy".toList ∧ r.axis.size = s.data.length ∧ r.axis.offset = s.offset ∧
        r.axis.scale = s.scale ∧ r.axis.units = "keV".toList ∧ r.axis.navigate = false) ∧
      (∀ v, s.hv = some v → r.beamEnergy = some v ∧ (30 < v → r.mode = "TEM".toList) ∧
        (v ≤ 30 → r.mode = "SEM".toList)) ∧
      (s.hv = none → r.beamEnergy = none ∧ r.mode = "SEM".toList) ∧ r.signalType = "EDS_".toList ++ r.mode ∧
      r.detector.elevation = s.elevation ∧ r.detector.type = s.detectorType ∧ r.detector.azimuth = s.azimuth ∧
      (∀ a b, s.realTime = some a → s.lifeTime = some b →
        r.detector.realTime = some (a / 1000) ∧ r.detector.liveTime = some (b / 1000)) ∧
      (s.realTime = none → r.detector.realTime = none ∧ r.detector.liveTime = none) ∧
      r.filename = filename ∧ r.date = date ∧ r.time = time ∧ (∀ t, name = some t → r.name = t) ∧
      (elems = none → r.elements = none) ∧
      (∀ d v, elems = some d → getKw "XmlClassName".toList d = some v → r.elements = some v) := by
  obtain ⟨els, hels, hn, hd⟩ : ∃ els, spxElements (elems.map V.dict) = .ok els ∧ (elems = none → els = none) ∧
      (∀ d v, elems = some d → getKw "XmlClassName".toList d = some v → els = some v) := by
    cases elems with
    | none => exact ⟨none, rfl, fun _ => rfl, (fun d v e => by cases e)⟩
    | some d =>
      obtain ⟨v, hv⟩ := he d rfl
      refine ⟨some v, ?_, (fun e => by cases e), ?_⟩
      · show (classNames (V.dict d)).map some = _
        unfold classNames
        dsimp only
        rw [hv]
        rfl
      · intro d' v' e hv'
        injection e with e
        subst e
        rw [hv] at hv'
        exact hv'
  have hmode : ∀ v, s.hv = some v → (30 < v → guessMode s.hv = "TEM".toList) ∧
      (v ≤ 30 → guessMode s.hv = "SEM".toList) := by
    intro v hv
    rw [hv]
    exact ⟨fun h => if_pos h, fun h => if_neg (not_lt.2 h)⟩
  cases hr : s.realTime with
  | none =>
    refine ⟨_, by
      unfold spxReader detectorNode
      rw [hr, hs]
      dsimp only
      show (spxElements _ >>= _) = _
      rw [hels]
      rfl, rfl, ⟨rfl, rfl, rfl, rfl, rfl, rfl⟩, ?_, ?_, rfl, rfl, rfl, rfl, ?_, fun _ => ⟨rfl, rfl⟩, rfl, rfl, rfl, ?_,
        hn, hd⟩
    · intro v hv; exact ⟨hv, hmode v hv⟩
    · intro hv; exact ⟨hv, by show guessMode s.hv = _; rw [hv]; rfl⟩
    · intro a b ha; cases ha
    · intro t ht; show name.getD _ = t; rw [ht]; rfl
  | some a =>
    cases hl : s.lifeTime with
    | none => rw [hr, hl] at ht; exact absurd (ht rfl) Bool.false_ne_true
    | some b =>
      refine ⟨_, by
        unfold spxReader detectorNode
        rw [hr, hl, hs]
        dsimp only
        show (spxElements _ >>= _) = _
        rw [hels]
        rfl, rfl, ⟨rfl, rfl, rfl, rfl, rfl, rfl⟩, ?_, ?_, rfl, rfl, rfl, rfl, ?_, ?_, rfl, rfl, rfl, ?_, hn, hd⟩
      · intro v hv; exact ⟨hv, hmode v hv⟩
      · intro hv; exact ⟨hv, by show guessMode s.hv = _; rw [hv]; rfl⟩
      · intro a' b' ha hb
        injection ha with ha
        injection hb with hb
        subst ha
        subst hb
        exact ⟨rfl, rfl⟩
      · intro e; cases e
      · intro t ht; show name.getD _ = t; rw [ht]; rfl

theorem field_ok {w : Nat} {t : Text} {n : Nat} (h : Writes w t n) : field w t = some n := by
  unfold field
  rw [if_pos ⟨h.1, h.2.1, List.all_eq_true.2 h.2.2.1⟩, h.2.2.2]

theorem no_char {w : Nat} {t : Text} {n : Nat} {c : Char} (h : Writes w t n) (hc : isDigit c = false) : c ∉ t :=
  fun hm => by rw [h.2.2.1 c hm] at hc; cases hc

theorem daysIn_ge {y m d hh mm ss : Nat} (h : ValidStamp y m d hh mm ss) : d ≤ daysIn y m := by
  obtain ⟨_, h1, h2, _, _, _, _, a, b, c⟩ := h
  unfold daysIn
  split
  · rename_i e
    have := c e
    split at this <;> split <;> omega
  · rename_i e
    split
    · rename_i e2
      exact b (by simp; omega)
    · rename_i e2
      exact a (by simp; omega)

/-- C137: a valid date `12.3.2019` with time `9:05:00` is given as `2019-03-12` and `09:05:00`. -/
theorem C137_dates {td tm ty th tmm ts : Text} {y m d hh mm ss : Nat} (hv : ValidStamp y m d hh mm ss)
    (h1 : Writes 2 td d) (h2 : Writes 2 tm m) (h3 : Writes 4 ty y) (hy : ty.length = 4) (h4 : Writes 2 th hh)
    (h5 : Writes 2 tmm mm) (h6 : Writes 2 ts ss) :
    ∃ date time, isoStamp (td ++ '.' :: tm ++ '.' :: ty) (th ++ ':' :: tmm ++ ':' :: ts) = .ok (date, time) ∧
      (∃ a b c, date = a ++ '-' :: b ++ '-' :: c ∧ a.length = 4 ∧ b.length = 2 ∧ c.length = 2 ∧ Writes 4 a y ∧
        Writes 2 b m ∧ Writes 2 c d) ∧
      (∃ a b c, time = a ++ ':' :: b ++ ':' :: c ∧ a.length = 2 ∧ b.length = 2 ∧ c.length = 2 ∧ Writes 2 a hh ∧
        Writes 2 b mm ∧ Writes 2 c ss) := by
  have hdays := daysIn_ge hv
  have e1 : splitChar '.' (td ++ '.' :: tm ++ '.' :: ty) = [td, tm, ty] := by
    rw [List.append_assoc, List.cons_append, splitChar_append (no_char h1 rfl), splitChar_append (no_char h2 rfl),
      splitChar_none (no_char h3 rfl)]
  have e2 : splitChar ':' (th ++ ':' :: tmm ++ ':' :: ts) = [th, tmm, ts] := by
    rw [List.append_assoc, List.cons_append, splitChar_append (no_char h4 rfl), splitChar_append (no_char h5 rfl),
      splitChar_none (no_char h6 rfl)]
  have hpad : ∀ n, n < 100 → (pad2 n).length = 2 ∧ Writes 2 (pad2 n) n := by
    have q : ∀ n ∈ List.range 100, (pad2 n).length = 2 ∧ pad2 n ≠ [] ∧ (pad2 n).length ≤ 2 ∧
        ((pad2 n).all isDigit = true) ∧ decVal (pad2 n) = n := by decide +kernel
    intro n hn
    have := q n (List.mem_range.2 hn)
    exact ⟨this.1, this.2.1, this.2.2.1, List.all_eq_true.1 this.2.2.2.1, this.2.2.2.2⟩
  obtain ⟨v1, v2, v3, v4, v5, v6, v7, a, b, c⟩ := hv
  have hd : d < 100 := by
    have : daysIn y m ≤ 31 := by unfold daysIn; split <;> split <;> omega
    omega
  refine ⟨_, _, ?_, ⟨ty, pad2 m, pad2 d, rfl, hy, (hpad m (by omega)).1, (hpad d hd).1, h3, (hpad m (by omega)).2,
    (hpad d hd).2⟩, ⟨pad2 hh, pad2 mm, pad2 ss, rfl, (hpad hh (by omega)).1, (hpad mm (by omega)).1,
    (hpad ss (by omega)).1, (hpad hh (by omega)).2, (hpad mm (by omega)).2, (hpad ss (by omega)).2⟩⟩
  unfold isoStamp
  rw [e1, e2]
  dsimp only
  rw [field_ok h1, field_ok h2, field_ok h3, field_ok h4, field_ok h5, field_ok h6]
  dsimp only
  rw [if_pos ⟨hy, v1, v2, v3, v4, hdays, v5, v6, v7⟩]

/-- C137: dates that are not in the calendar are refused. -/
theorem C137_rejects_dates {td tm ty th tmm ts : Text} {y m d hh mm ss : Nat} (hv : ¬ ValidStamp y m d hh mm ss)
    (h1 : Writes 2 td d) (h2 : Writes 2 tm m) (h3 : Writes 4 ty y) (h4 : Writes 2 th hh)
    (h5 : Writes 2 tmm mm) (h6 : Writes 2 ts ss) :
    isoStamp (td ++ '.' :: tm ++ '.' :: ty) (th ++ ':' :: tmm ++ ':' :: ts) = .error .valueError := by
  have e1 : splitChar '.' (td ++ '.' :: tm ++ '.' :: ty) = [td, tm, ty] := by
    rw [List.append_assoc, List.cons_append, splitChar_append (no_char h1 rfl), splitChar_append (no_char h2 rfl),
      splitChar_none (no_char h3 rfl)]
  have e2 : splitChar ':' (th ++ ':' :: tmm ++ ':' :: ts) = [th, tmm, ts] := by
    rw [List.append_assoc, List.cons_append, splitChar_append (no_char h4 rfl), splitChar_append (no_char h5 rfl),
      splitChar_none (no_char h6 rfl)]
  unfold isoStamp
  rw [e1, e2]
  dsimp only
  rw [field_ok h1, field_ok h2, field_ok h3, field_ok h4, field_ok h5, field_ok h6]
  dsimp only
  rw [if_neg]
  rintro ⟨_, v1, v2, v3, v4, hdays, v5, v6, v7⟩
  refine hv ⟨v1, v2, v3, v4, v5, v6, v7, ?_, ?_, ?_⟩
  · intro hm
    have : daysIn y m ≤ 31 := by unfold daysIn; split <;> split <;> omega
    omega
  · intro hm
    unfold daysIn at hdays
    simp only [List.mem_cons, List.not_mem_nil, or_false] at hm
    rw [if_neg (by omega), if_pos (by omega)] at hdays
    exact hdays
  · intro hm
    unfold daysIn at hdays
    rw [if_pos hm] at hdays
    split at hdays <;> split <;> omega

end Verif.Props.Bruker
