import Verif.Lemmas.DMSignal
/-! Images of Digital Micrograph files: C132 (axes) and C133 (pixels and images). -/
namespace Verif.Props.DMSignal
open Verif Verif.DMSignal

/-! ### C132: axes -/

theorem lenShape (im : Im) : (shape im).length = im.dims.length := by simp [shape]

theorem shape_get {im : Im} {k n : Nat} (h : im.dims[k]? = some n) :
    (shape im)[im.dims.length - 1 - k]? = some n := by
  have hk := (List.getElem?_eq_some_iff.1 h).1
  unfold shape
  rw [List.getElem?_reverse (by omega)]
  rw [show im.dims.length - 1 - (im.dims.length - 1 - k) = k by omega, h]

theorem units_get {im : Im} (h : im.cals.length ≤ im.dims.length) {k : Nat} (hk : k < im.dims.length) :
    (units im)[im.dims.length - 1 - k]? = some ((im.cals[k]?).getD ⟨0, 1, []⟩).units := by
  unfold units
  rw [List.getElem?_map, padded_get h hk]
  rfl

theorem length_units {im : Im} (h : im.cals.length ≤ im.dims.length) : (units im).length = im.dims.length := by
  simp [units, length_padded h]

/-- The position of the last dimension with these units. -/
theorem indexOf_last {im : Im} {u : Text} (hu : u ≠ []) (h : im.cals.length ≤ im.dims.length) {k : Nat}
    (hl : LastWith im u k) : indexOf u (units im) = some (im.dims.length - 1 - k) := by
  obtain ⟨hk, ⟨c, hc, hcu⟩, hlast⟩ := hl
  have hat := units_get h hk
  rw [hc] at hat
  dsimp only [Option.getD_some] at hat
  rw [hcu] at hat
  cases hi : indexOf u (units im) with
  | none => exact absurd hat (indexOf_none hi _)
  | some i =>
    have hs := indexOf_spec hi
    congr 1
    rcases Nat.lt_trichotomy i (im.dims.length - 1 - k) with hlt | heq | hgt
    · exfalso
      have hj := units_get h (k := im.dims.length - 1 - i) (by omega)
      rw [show im.dims.length - 1 - (im.dims.length - 1 - i) = i by omega, hs.1] at hj
      injection hj with hj
      cases hcal : im.cals[im.dims.length - 1 - i]? with
      | none => rw [hcal] at hj; exact hu hj
      | some c' =>
        rw [hcal] at hj
        exact hlast _ c' (by omega) hcal hj.symm
    · exact heq
    · exact absurd hat (hs.2 _ hgt)

theorem indexOf_no {im : Im} {u : Text} (hu : u ≠ []) (h : im.cals.length ≤ im.dims.length)
    (hl : ∀ k, ¬ LastWith im u k) : indexOf u (units im) = none := by
  cases hi : indexOf u (units im) with
  | none => rfl
  | some i =>
    exfalso
    have hs := indexOf_spec hi
    have hlt : i < im.dims.length := by
      have := (List.getElem?_eq_some_iff.1 hs.1).1
      rwa [length_units h] at this
    have key : ∀ j, j < im.dims.length → (units im)[j]? = some u →
        ∃ c, im.cals[im.dims.length - 1 - j]? = some c ∧ c.units = u := by
      intro j hj e
      have hg := units_get h (k := im.dims.length - 1 - j) (by omega)
      rw [show im.dims.length - 1 - (im.dims.length - 1 - j) = j by omega, e] at hg
      injection hg with hg
      cases hc : im.cals[im.dims.length - 1 - j]? with
      | none => rw [hc] at hg; exact absurd hg hu
      | some c => rw [hc] at hg; exact ⟨c, rfl, hg.symm⟩
    refine hl (im.dims.length - 1 - i) ⟨by omega, key i hlt hs.1, fun j c hj hc hcu => ?_⟩
    have hjl := (List.getElem?_eq_some_iff.1 hc).1
    refine hs.2 (im.dims.length - 1 - j) (by omega) ?_
    rw [units_get h (by omega), hc]
    exact congrArg some hcu

theorem signalType_xray {im : Im} (h : IsXray im) : signalType im = "EDS_TEM".toList := by
  unfold IsXray at h
  unfold signalType
  rw [h]
  simp

theorem getD_eq {o : Option Text} {t : Text} (ht : t ≠ []) : o.getD [] = t ↔ o = some t := by
  cases o with
  | none => simp; exact ht
  | some v => simp

theorem signalType_cl {im : Im} (h : IsCL im) : signalType im = "CL".toList := by
  obtain ⟨h1, h2⟩ := h
  unfold IsXray at h1
  unfold signalType
  dsimp only
  rw [if_neg (by rwa [getD_eq (by decide)]), if_pos (by rwa [getD_eq (by decide)])]

theorem signalType_eels {im : Im} (h : IsEels im) : signalType im = "EELS".toList := by
  obtain ⟨h1, h2, h3⟩ := h
  have h2' : ¬ (im.signal = some "CL".toList ∨ im.monarc = true) := fun e => h2 ⟨h1, e⟩
  unfold IsXray at h1
  unfold signalType
  dsimp only
  rw [if_neg (by rwa [getD_eq (by decide)]), if_neg (by rwa [getD_eq (by decide)]),
    if_pos (by rwa [getD_eq (by decide)])]

theorem signalType_other {im : Im} (h1 : ¬ IsXray im) (h2 : ¬ IsCL im) (h3 : ¬ IsEels im) :
    signalType im = [] := by
  have h2' : ¬ (im.signal = some "CL".toList ∨ im.monarc = true) := fun e => h2 ⟨h1, e⟩
  have h3' : ¬ (im.signal = some "EELS".toList ∨ im.spimEels = true) := fun e => h3 ⟨h1, h2, e⟩
  unfold IsXray at h1
  unfold signalType
  dsimp only
  rw [if_neg (by rwa [getD_eq (by decide)]), if_neg (by rwa [getD_eq (by decide)]),
    if_neg (by rwa [getD_eq (by decide)])]

/-- Names with a special axis at dimension `s`. -/
theorem namesAt_some {n s : Nat} (hs : s < n) (name : Text) : ∃ ns, namesAt n (some (n - 1 - s, name)) = .ok ns ∧
    ns.length = n ∧ ∀ k, k < n → ns[n - 1 - k]? =
      some (if k = s then some name else letter (if k < s then k else k - 1)) := by
  refine ⟨_, if_pos (by omega), by simp [length_setNames], fun k hk => ?_⟩
  by_cases e : k = s
  · subst e
    rw [if_pos rfl, setNames_other (notMem_erase _ _)]
    exact List.getElem?_set_self (by rw [List.length_replicate]; omega)
  · rw [if_neg e]
    refine setNames_get (nodup_erase _ _) (k := if k < s then k else k - 1) ?_ (by simp; omega) ?_
    · rw [erase_reverse_get (by omega) (by split <;> omega)]
      congr 1
      split <;> split <;> omega
    · rw [List.getElem?_set_ne (by omega), List.getElem?_replicate, if_pos (by omega)]

theorem namesAt_none (n : Nat) : ∃ ns, namesAt n none = .ok ns ∧ ns.length = n ∧
    ∀ k, k < n → ns[n - 1 - k]? = some (letter k) := by
  refine ⟨_, rfl, by simp [length_setNames], fun k hk => ?_⟩
  refine setNames_get List.nodup_range (range_reverse_get hk) (by simp; omega) ?_
  rw [List.getElem?_replicate, if_pos (by omega)]

theorem special_eels : special "EELS".toList = some ("eV".toList, "Energy loss".toList) := by decide
theorem special_cl : special "CL".toList = some ("nm".toList, "Wavelength".toList) := by decide
theorem special_eds : special "EDS_TEM".toList = none := by decide
theorem special_nil : special [] = none := by decide

theorem not_eels_of_cl {im : Im} (h : IsCL im) : ¬ IsEels im := fun e => e.2.1 h

theorem names_ok {im : Im} (h : im.cals.length ≤ im.dims.length) : ∃ ns, names im = .ok ns ∧
    ns.length = im.dims.length ∧
    (∀ s, IsEels im → LastWith im "eV".toList s → ∀ k, k < im.dims.length → ns[im.dims.length - 1 - k]? =
      some (if k = s then some "Energy loss".toList else letter (if k < s then k else k - 1))) ∧
    (∀ s, IsCL im → LastWith im "nm".toList s → ∀ k, k < im.dims.length → ns[im.dims.length - 1 - k]? =
      some (if k = s then some "Wavelength".toList else letter (if k < s then k else k - 1))) ∧
    ((¬ IsEels im ∨ ∀ k, ¬ LastWith im "eV".toList k) → (¬ IsCL im ∨ ∀ k, ¬ LastWith im "nm".toList k) →
      ∀ k, k < im.dims.length → ns[im.dims.length - 1 - k]? = some (letter k)) := by
  have hev : ("eV".toList : Text) ≠ [] := by decide
  have hnm : ("nm".toList : Text) ≠ [] := by decide
  unfold names
  rw [lenShape]
  by_cases he : IsEels im
  · have hc : ¬ IsCL im := he.2.1
    rw [signalType_eels he, special_eels]
    by_cases hl : ∃ s, LastWith im "eV".toList s
    · obtain ⟨s, hl⟩ := hl
      dsimp only [Option.bind_some]
      rw [indexOf_last hev h hl]
      obtain ⟨ns, e1, e2, e3⟩ := namesAt_some hl.1 "Energy loss".toList
      refine ⟨ns, e1, e2, fun s' _ hl' => ?_, fun s' hc' => absurd hc' hc, fun hn => ?_⟩
      · have : s' = s := by
          have a := indexOf_last hev h hl
          have b := indexOf_last hev h hl'
          rw [a] at b
          injection b with b
          have := hl.1
          have := hl'.1
          omega
        subst this
        exact e3
      · rcases hn with hn | hn
        · exact absurd he hn
        · exact absurd hl (hn s)
    · have hl' : ∀ k, ¬ LastWith im "eV".toList k := fun k hk => hl ⟨k, hk⟩
      dsimp only [Option.bind_some]
      rw [indexOf_no hev h hl']
      obtain ⟨ns, e1, e2, e3⟩ := namesAt_none im.dims.length
      exact ⟨ns, e1, e2, fun s _ hs => absurd hs (hl' s), fun s' hc' => absurd hc' hc, fun _ _ => e3⟩
  · by_cases hc : IsCL im
    · rw [signalType_cl hc, special_cl]
      by_cases hl : ∃ s, LastWith im "nm".toList s
      · obtain ⟨s, hl⟩ := hl
        dsimp only [Option.bind_some]
        rw [indexOf_last hnm h hl]
        obtain ⟨ns, e1, e2, e3⟩ := namesAt_some hl.1 "Wavelength".toList
        refine ⟨ns, e1, e2, fun s' he' => absurd he' he, fun s' _ hl' => ?_, fun _ hn => ?_⟩
        · have : s' = s := by
            have a := indexOf_last hnm h hl
            have b := indexOf_last hnm h hl'
            rw [a] at b
            injection b with b
            have := hl.1
            have := hl'.1
            omega
          subst this
          exact e3
        · rcases hn with hn | hn
          · exact absurd hc hn
          · exact absurd hl (hn s)
      · have hl' : ∀ k, ¬ LastWith im "nm".toList k := fun k hk => hl ⟨k, hk⟩
        dsimp only [Option.bind_some]
        rw [indexOf_no hnm h hl']
        obtain ⟨ns, e1, e2, e3⟩ := namesAt_none im.dims.length
        exact ⟨ns, e1, e2, fun s he' => absurd he' he, fun s _ hs => absurd hs (hl' s), fun _ _ => e3⟩
    · have hsp : special (signalType im) = none := by
        by_cases hx : IsXray im
        · rw [signalType_xray hx, special_eds]
        · rw [signalType_other hx hc he, special_nil]
      rw [hsp]
      obtain ⟨ns, e1, e2, e3⟩ := namesAt_none im.dims.length
      exact ⟨ns, e1, e2, fun s he' => absurd he' he, fun s hc' => absurd hc' hc, fun _ _ => e3⟩

theorem isSpectrum_iff (im : Im) : isSpectrum im = true ↔ Spectral im := by
  unfold isSpectrum Spectral
  simp [or_assoc]

theorem length_scales {im : Im} (h : im.cals.length ≤ im.dims.length) : (scales im).length = im.dims.length := by
  simp [scales, length_padded h]

theorem navigate_ok {im : Im} (h : im.cals.length ≤ im.dims.length) (h0 : im.dims ≠ []) :
    ∃ vs, navigate im = .ok vs ∧ vs.length = im.dims.length ∧
    ∀ k, k < im.dims.length → ∃ v, vs[im.dims.length - 1 - k]? = some v ∧
      (v = false ↔ k = 0 ∨ (k = 1 ∧ ¬ (Spectral im ∧ im.dims.length = 2))) := by
  have hpos : 0 < im.dims.length := List.length_pos_iff.2 h0
  unfold navigate
  dsimp only
  rw [lenShape, length_scales h]
  by_cases hc : im.dims.length = 1 ∨ (isSpectrum im = true ∧ im.dims.length = 2)
  · rw [if_pos hc, if_neg (by rw [← List.length_eq_zero_iff]; simp; exact h0)]
    refine ⟨_, rfl, by simp; omega, fun k hk => ?_⟩
    rw [List.dropLast_replicate]
    by_cases hk0 : k = 0
    · subst hk0
      refine ⟨false, ?_, by simp⟩
      rw [List.getElem?_append_right (by simp)]
      simp
    · refine ⟨true, ?_, ?_⟩
      · rw [List.getElem?_append_left (by simp; omega), List.getElem?_replicate, if_pos (by omega)]
      · simp [hk0]
        intro hk1
        rcases hc with hc | hc
        · omega
        · exact ⟨(isSpectrum_iff im).1 hc.1, hc.2⟩
  · rw [if_neg hc]
    have h2 : 2 ≤ im.dims.length := by
      by_contra hlt
      exact hc (Or.inl (by omega))
    refine ⟨_, rfl, by simp; omega, fun k hk => ?_⟩
    by_cases hk2 : k < 2
    · refine ⟨false, ?_, ?_⟩
      · rw [List.getElem?_append_right (by simp; omega)]
        simp
        match k, hk2 with
        | 0, _ => rw [show im.dims.length - 1 - 0 - (im.dims.length - 2) = 1 by omega]; rfl
        | 1, _ => rw [show im.dims.length - 1 - 1 - (im.dims.length - 2) = 0 by omega]; rfl
      · simp
        by_cases hk0 : k = 0
        · exact Or.inl hk0
        · exact Or.inr ⟨by omega, fun hs hd => hc (Or.inr ⟨(isSpectrum_iff im).2 hs, hd⟩)⟩
    · refine ⟨true, ?_, by simp; omega⟩
      rw [List.getElem?_append_left (by simp; omega), List.take_replicate, List.getElem?_replicate,
        if_pos (by simp; omega)]

/-- C132, the part that holds: an image with no more calibrations than dimensions gets one axis for each dimension, in
reverse order, with the size, scale, offset and units of that dimension, neutral where the calibration is missing; the
first dimension is a signal axis and so is the second, except for a line of spectra; the energy-loss axis and the
wavelength axis are named, the others are `x`, `y` and `z`. Missing: the energy axis of X-ray spectra is not
named, and images with more calibrations than dimensions are not covered (see the counterexamples). -/
theorem C132_axes_partial {im : Im} (h : im.cals.length ≤ im.dims.length) (h0 : im.dims ≠ []) :
    ∃ axs, axes im = .ok axs ∧ AxesOf im axs := by
  obtain ⟨ns, n1, n2, n3, n4, n5⟩ := names_ok h
  obtain ⟨vs, v1, v2, v3⟩ := navigate_ok h h0
  have hget : ∀ k, k < im.dims.length → ∃ n d v,
      (zipAxes 0 ns (shape im) (scales im) (offsets im) (units im) vs)[im.dims.length - 1 - k]? =
        some ⟨n, d, im.dims.length - 1 - k, ((im.cals[k]?).getD ⟨0, 1, []⟩).scale,
          -1 * ((im.cals[k]?).getD ⟨0, 1, []⟩).origin * ((im.cals[k]?).getD ⟨0, 1, []⟩).scale,
          ((im.cals[k]?).getD ⟨0, 1, []⟩).units, v⟩ ∧
      ns[im.dims.length - 1 - k]? = some n ∧ im.dims[k]? = some d ∧ vs[im.dims.length - 1 - k]? = some v := by
    intro k hk
    obtain ⟨v, hv, _⟩ := v3 k hk
    have hn : ∃ n, ns[im.dims.length - 1 - k]? = some n := by
      exact ⟨_, List.getElem?_eq_getElem (by omega)⟩
    obtain ⟨n, hn⟩ := hn
    have hd : im.dims[k]? = some im.dims[k] := List.getElem?_eq_getElem hk
    refine ⟨n, _, v, ?_, hn, hd, hv⟩
    rw [zipAxes_get (im.dims.length - 1 - k) 0 ns _ _ _ _ vs n _ _ _ _ v hn (shape_get hd)
      (by unfold scales; rw [List.getElem?_map, padded_get h hk]; rfl)
      (by unfold offsets; rw [List.getElem?_map, padded_get h hk]; rfl) (units_get h hk) hv]
    simp
  refine ⟨zipAxes 0 ns (shape im) (scales im) (offsets im) (units im) vs, by unfold axes; rw [n1, v1]; rfl, ?_⟩
  refine ⟨⟨?_, ?_⟩, ?_, ?_, ?_, ?_⟩
  · refine length_zipAxes _ _ _ _ _ _ _ _ n2 (lenShape im) (length_scales h) ?_ (length_units h) v2
    simp [offsets, length_padded h]
  · intro k n hn
    have hk := (List.getElem?_eq_some_iff.1 hn).1
    obtain ⟨nm, d, v, e, _, hd, _⟩ := hget k hk
    rw [hn] at hd
    injection hd with hd
    refine ⟨_, e, hd.symm, rfl, fun c hc => ?_, fun hc => ?_⟩
    · rw [hc]
      exact ⟨rfl, by show -1 * c.origin * c.scale = _; ring, rfl⟩
    · rw [List.getElem?_eq_none hc]
      exact ⟨rfl, by show -1 * (0 : Rat) * 1 = 0; ring, rfl⟩
  · intro k a ha hk
    obtain ⟨nm, d, v, e, _, _, hv⟩ := hget k hk
    obtain ⟨v', hv', hi⟩ := v3 k hk
    rw [hv] at hv'
    injection hv' with hv'
    rw [e] at ha
    injection ha with ha
    subst ha
    rw [hv']
    exact hi
  · intro s he hl k a ha hk
    obtain ⟨nm, d, v, e, hn, _, _⟩ := hget k hk
    rw [n3 s he hl k hk] at hn
    injection hn with hn
    rw [e] at ha
    injection ha with ha
    subst ha
    exact hn.symm
  · intro s he hl k a ha hk
    obtain ⟨nm, d, v, e, hn, _, _⟩ := hget k hk
    rw [n4 s he hl k hk] at hn
    injection hn with hn
    rw [e] at ha
    injection ha with ha
    subst ha
    exact hn.symm
  · intro h1 h2 k a ha hk
    obtain ⟨nm, d, v, e, hn, _, _⟩ := hget k hk
    rw [n5 h1 h2 k hk] at hn
    injection hn with hn
    rw [e] at ha
    injection ha with ha
    subst ha
    exact hn.symm

/-! ### C133: pixels -/

theorem itemSize_of {t w : Nat} (h : (t, w) ∈ pixelTypes) : itemSize t = .ok w := by
  have q : ∀ p ∈ pixelTypes, itemSize p.1 = .ok p.2 := by decide
  exact q _ h

theorem plain_of {t w : Nat} (h : (t, w) ∈ pixelTypes) : (isPacked t || t == 5) = false := by
  have q : ∀ p ∈ pixelTypes, (isPacked p.1 || p.1 == 5) = false := by decide
  exact q _ h

theorem rgb_of {t w : Nat} (h : (t, w) ∈ pixelTypes) : isRgb t = true → w = 4 := by
  have q : ∀ p ∈ pixelTypes, isRgb p.1 = true → p.2 = 4 := by decide
  exact q _ h

theorem size_shape (im : Im) : size (shape im) = size im.dims := size_reverse _

/-- A value of one byte is stored alike in both orders. -/
theorem stored_le {im : Im} {w : Nat} {file : List UInt8} {val : List Nat → Nat}
    (hb : im.big = false ∨ w = 1) (hold : Holds im w file val) {c : List Nat} (hc : InBounds im.dims c) :
    (file.drop (im.offset + place im.dims c * w)).take w = leBytes w (val c) := by
  rw [(hold.2 c hc).2]
  rcases hb with hb | hb
  · simp [hb]
  · subst hb
    split
    · simp [beBytes, leBytes]
    · rfl

/-- The values read are those at the places of the pixels. -/
theorem read_get {im : Im} {w : Nat} {file : List UInt8} {val : List Nat → Nat}
    (hb : im.big = false ∨ w = 1) (hold : Holds im w file val) :
    (fromFile w (size im.dims) (file.drop im.offset)).length = size im.dims ∧
    ∀ c, InBounds im.dims c →
      (fromFile w (size im.dims) (file.drop im.offset))[flatIndex (shape im) c.reverse]? =
        some (leBytes w (val c)) := by
  have hlen : size im.dims * w ≤ (file.drop im.offset).length := by
    rw [List.length_drop]; have := hold.1; omega
  obtain ⟨e1, e2⟩ := fromFile_get w (size im.dims) (file.drop im.offset) hlen
  refine ⟨e1, fun c hc => ?_⟩
  rw [shape, flatIndex_reverse hc, e2 _ (place_lt hc), List.drop_drop, stored_le hb hold hc]

theorem leVal_reorder {v : Nat} (h : v < 256 ^ 4) : leVal (reorder (leBytes 4 v)) = swapRB v := by
  have e : reorder (leBytes 4 v) = [UInt8.ofNat (v / 256 / 256), UInt8.ofNat (v / 256),
    UInt8.ofNat v, UInt8.ofNat (v / 256 / 256 / 256)] := by
    simp [leBytes, reorder]
  rw [e]
  simp only [leVal, swapRB, UInt8.toNat_ofNat', Nat.div_div_eq_div_mul]
  have h' : v / 16777216 < 256 := by omega
  simp only [show 256 * 256 = 65536 from rfl, show 65536 * 256 = 16777216 from rfl]
  have h3 : v / 16777216 % 256 = v / 16777216 := Nat.mod_eq_of_lt h'
  norm_num
  rw [h3]
  ring

/-- C133, the part that holds: for every data type that holds one number or one colour per pixel, the array read has at
each pixel the value the file holds there; the colours come as red, green, blue and alpha. Missing: values of more
than one byte in big-endian files are read with their bytes reversed (see the counterexample). -/
theorem C133_pixels_partial {im : Im} {w : Nat} (ht : (im.dataType, w) ∈ pixelTypes)
    (hb : im.big = false ∨ w = 1) (hn : im.count = size im.dims) {file : List UInt8} {val : List Nat → Nat}
    (hold : Holds im w file val) : ∃ d, getData im false file = .ok d ∧
      Shows im (fun c => if im.dataType = 8 ∨ im.dataType = 23 then swapRB (val c) else val c) d := by
  obtain ⟨e1, e2⟩ := read_get hb hold
  have hp := plain_of ht
  have hpk : isPacked im.dataType = false := by
    rw [Bool.or_eq_false_iff] at hp; exact hp.1
  have hfin : getData im false file = .ok (arrayOf false (shape im)
      (if isRgb im.dataType then (fromFile w (size im.dims) (file.drop im.offset)).map reorder
        else fromFile w (size im.dims) (file.drop im.offset))) := by
    unfold getData
    rw [itemSize_of ht]
    show finish im false (readValues im w file) = _
    have hr : readValues im w file = fromFile w (size im.dims) (file.drop im.offset) := by
      unfold readValues
      rw [hpk, hn]
      simp
    rw [hr]
    unfold finish
    rw [hp, if_neg (by simp), if_pos (by rw [e1, size_shape])]
  refine ⟨_, hfin, rfl, fun c hc => ?_⟩
  by_cases hr : isRgb im.dataType = true
  · have hw := rgb_of ht hr
    subst hw
    rw [if_pos hr]
    have hor : im.dataType = 8 ∨ im.dataType = 23 := by simpa [isRgb] using hr
    dsimp only
    rw [if_pos hor]
    simp only [position, Bool.false_eq_true, if_false, List.getElem?_map, e2 c hc, Option.map_some]
    rw [leVal_reorder (hold.2 c hc).1]
  · rw [if_neg hr]
    have hor : ¬ (im.dataType = 8 ∨ im.dataType = 23) := by simpa [isRgb] using hr
    dsimp only
    rw [if_neg hor]
    simp only [position, Bool.false_eq_true, if_false, e2 c hc, Option.map_some]
    rw [leVal_leBytes (hold.2 c hc).1]

/-- The same lazily, except for colours. -/
theorem C133_lazy {im : Im} {w : Nat} (ht : (im.dataType, w) ∈ pixelTypes)
    (hrgb : im.dataType ≠ 8 ∧ im.dataType ≠ 23)
    (hb : im.big = false ∨ w = 1) {file : List UInt8} {val : List Nat → Nat}
    (hold : Holds im w file val) : ∃ d, getDataLazy im false file = .ok d ∧ Shows im val d := by
  obtain ⟨e1, e2⟩ := read_get hb hold
  have hr : isRgb im.dataType = false := by simp [isRgb, hrgb.1, hrgb.2]
  have hfin : getDataLazy im false file =
      .ok (arrayOf false (shape im) (fromFile w (size im.dims) (file.drop im.offset))) := by
    unfold getDataLazy
    rw [itemSize_of ht, hr]
    show (if file.length < im.offset + size (shape im) * w then _ else _) = _
    rw [if_neg (by rw [size_shape]; have := hold.1; omega), size_shape]
  refine ⟨_, hfin, rfl, fun c hc => ?_⟩
  simp only [position, Bool.false_eq_true, if_false, e2 c hc, Option.map_some]
  rw [leVal_leBytes (hold.2 c hc).1]

/-- Colours are refused lazily. -/
theorem C133_lazy_colours {im : Im} (h : im.dataType = 8 ∨ im.dataType = 23) (fortran : Bool)
    (file : List UInt8) : getDataLazy im fortran file = .error .valueError := by
  unfold getDataLazy
  have hr : isRgb im.dataType = true := by simpa [isRgb] using h
  rw [hr]
  rfl

/-- With `order="F"` the first axis of the array varies fastest in the file. -/
theorem C133_order {im : Im} {w : Nat} (ht : (im.dataType, w) ∈ pixelTypes)
    (hrgb : im.dataType ≠ 8 ∧ im.dataType ≠ 23) (hn : im.count = size im.dims) {file : List UInt8}
    (hlen : im.offset + size im.dims * w ≤ file.length) {at_ : List Nat → Option Nat} {sh : List Nat}
    (lazy_ : Bool)
    (h : (if lazy_ then getDataLazy im true file else getData im true file) = .ok (.array sh at_)) {idx : List Nat}
    (hi : InBounds im.dims.reverse idx) : at_ idx =
      some (leVal ((file.drop (im.offset + place im.dims.reverse idx * w)).take w)) := by
  have hp := plain_of ht
  have hpk : isPacked im.dataType = false := by
    rw [Bool.or_eq_false_iff] at hp; exact hp.1
  have hr : isRgb im.dataType = false := by simp [isRgb, hrgb.1, hrgb.2]
  have hl : size im.dims * w ≤ (file.drop im.offset).length := by rw [List.length_drop]; omega
  obtain ⟨e1, e2⟩ := fromFile_get w (size im.dims) (file.drop im.offset) hl
  have hfin : (if lazy_ then getDataLazy im true file else getData im true file) =
      .ok (arrayOf true (shape im) (fromFile w (size im.dims) (file.drop im.offset))) := by
    cases lazy_ with
    | true =>
      show getDataLazy im true file = _
      unfold getDataLazy
      rw [itemSize_of ht, hr]
      show (if file.length < im.offset + size (shape im) * w then _ else _) = _
      rw [if_neg (by rw [size_shape]; omega), size_shape]
    | false =>
      show getData im true file = _
      unfold getData
      rw [itemSize_of ht]
      show finish im true (readValues im w file) = _
      have hrv : readValues im w file = fromFile w (size im.dims) (file.drop im.offset) := by
        unfold readValues
        rw [hpk, hn]
        simp
      rw [hrv]
      unfold finish
      rw [hp, if_neg (by simp), if_pos (by rw [e1, size_shape]), hr]
      rfl
  rw [hfin] at h
  injection h with h
  injection h with h1 h2
  subst h2
  simp only [position, if_true, shape]
  have hpl := flatIndex_reverse hi
  rw [hpl, e2 _ (by rw [← size_reverse]; exact place_lt hi), List.drop_drop]
  rfl

/-- A file that ends before the last pixel is an error, eagerly and lazily, never an array. -/
theorem C133_rejects_short {im : Im} {w : Nat} (ht : (im.dataType, w) ∈ pixelTypes) (fortran : Bool)
    {file : List UInt8} (hs : file.length < im.offset + size im.dims * w) (h0 : 0 < size im.dims) :
    getData im fortran file = .error .valueError ∧ getDataLazy im fortran file = .error .valueError := by
  have hp := plain_of ht
  constructor
  · unfold getData
    rw [itemSize_of ht]
    show finish im fortran (readValues im w file) = _
    unfold finish
    rw [hp, if_neg (by simp), if_neg]
    intro e
    unfold readValues at e
    have h1 := length_fromFile_le w (if isPacked im.dataType then im.count / 2 else im.count) (file.drop im.offset)
    rw [e, size_shape, List.length_drop] at h1
    have hw : 0 < w := by
      have q : ∀ p ∈ pixelTypes, 0 < p.2 := by decide
      exact q _ ht
    have : 0 < size im.dims * w := Nat.mul_pos h0 hw
    omega
  · unfold getDataLazy
    cases hr : isRgb im.dataType with
    | true => rfl
    | false =>
      rw [itemSize_of ht]
      show (if file.length < im.offset + size (shape im) * w then _ else _) = _
      rw [if_pos (by rw [size_shape]; exact hs)]
      rfl

/-- A count that is not the number of pixels is an error. -/
theorem C133_rejects_count {im : Im} {w : Nat} (ht : (im.dataType, w) ∈ pixelTypes) (fortran : Bool)
    {file : List UInt8} (hs : im.count < size im.dims) : getData im fortran file = .error .valueError := by
  have hp := plain_of ht
  have hpk : isPacked im.dataType = false := by
    rw [Bool.or_eq_false_iff] at hp; exact hp.1
  unfold getData
  rw [itemSize_of ht]
  show finish im fortran (readValues im w file) = _
  unfold finish
  rw [hp, if_neg (by simp), if_neg]
  intro e
  unfold readValues at e
  have := length_fromFile_count w (if isPacked im.dataType then im.count / 2 else im.count) (file.drop im.offset)
  rw [e, size_shape, hpk] at this
  simp at this
  omega

/-- Neither are more values than pixels cut. -/
theorem C133_rejects_more {im : Im} {w : Nat} (ht : (im.dataType, w) ∈ pixelTypes) (fortran : Bool)
    {file : List UInt8} (hs : size im.dims < im.count) (hf : im.offset + im.count * w ≤ file.length) :
    getData im fortran file = .error .valueError := by
  have hp := plain_of ht
  have hpk : isPacked im.dataType = false := by
    rw [Bool.or_eq_false_iff] at hp; exact hp.1
  have e := (fromFile_get w im.count (file.drop im.offset) (by rw [List.length_drop]; omega)).1
  unfold getData
  rw [itemSize_of ht]
  show finish im fortran (readValues im w file) = _
  unfold finish
  rw [hp, if_neg (by simp), if_neg]
  unfold readValues
  rw [hpk, if_neg (by simp), e, size_shape]
  omega

/-- The numbers unpacked to a complex image are those stored: half the count of complex numbers (types 27 and 28), or
the count of reals (type 5). -/
theorem C133_packed {im : Im} {w n : Nat} (ht : (im.dataType, w, n) ∈
      [(27, 8, im.count / 2), (28, 16, im.count / 2), (5, 4, im.count)]) (fortran : Bool) {file : List UInt8}
    (hlen : im.offset + n * w ≤ file.length) : ∃ vals, getData im fortran file = .ok (.packed vals) ∧
      vals.length = n ∧
      ∀ i, i < n → vals[i]? = some (leVal ((file.drop (im.offset + i * w)).take w)) := by
  have key : itemSize im.dataType = .ok w ∧ (isPacked im.dataType || im.dataType == 5) = true ∧
      (if isPacked im.dataType then im.count / 2 else im.count) = n := by
    simp only [List.mem_cons, Prod.mk.injEq, List.not_mem_nil, or_false] at ht
    rcases ht with ⟨e1, e2, e3⟩ | ⟨e1, e2, e3⟩ | ⟨e1, e2, e3⟩ <;> subst e2 <;> subst e3 <;> rw [e1] <;>
      exact ⟨rfl, rfl, rfl⟩
  obtain ⟨k1, k2, k3⟩ := key
  have hl : n * w ≤ (file.drop im.offset).length := by rw [List.length_drop]; omega
  obtain ⟨e1, e2⟩ := fromFile_get w n (file.drop im.offset) hl
  refine ⟨(fromFile w n (file.drop im.offset)).map leVal, ?_, by simp [e1], fun i hi => ?_⟩
  · unfold getData
    rw [k1]
    show finish im fortran (readValues im w file) = _
    unfold finish readValues
    rw [k2, k3]
    rfl
  · rw [List.getElem?_map, e2 i hi, List.drop_drop]
    rfl

/-- Data types that are not read raise an error: 0 and 4 and all that are neither pixel nor packed types. -/
theorem C133_rejects_type {im : Im} (h : ∀ w, (im.dataType, w) ∉ pixelTypes)
    (h5 : im.dataType ≠ 5 ∧ im.dataType ≠ 27 ∧ im.dataType ≠ 28) (fortran : Bool) (file : List UInt8) :
    ∃ e, getData im fortran file = .error e := by
  unfold getData
  cases hi : itemSize im.dataType with
  | error e => exact ⟨e, rfl⟩
  | ok w =>
    exfalso
    revert hi h h5
    generalize im.dataType = t
    intro h h5 hi
    unfold itemSize at hi
    split at hi <;> first
      | (cases hi; done)
      | (simp at h5; done)
      | (refine h _ (?_ : (_, w) ∈ pixelTypes); injection hi with hi; subst hi; decide)

/-! ### C133: images of a file -/

theorem isDigit_dec (k : Nat) : (decChars k).all isDigit = true := by
  rw [List.all_eq_true]
  exact fun c hc => decChars_digits k c hc

theorem imageNumber_ok (k : Nat) : imageNumber ("TagGroup".toList ++ decChars k) = .ok k := by
  unfold imageNumber
  have hp : "TagGroup".toList.isPrefixOf ("TagGroup".toList ++ decChars k) = true := by
    rw [List.isPrefixOf_iff_prefix]; exact List.prefix_append _ _
  have hd : ("TagGroup".toList ++ decChars k).drop 8 = decChars k := by
    rw [List.drop_left' (by decide)]
  dsimp only
  rw [if_pos hp, hd, if_pos ⟨decChars_ne_nil k, isDigit_dec k⟩, decVal_decChars]

/-- All images except the thumbnails are kept, in order. -/
theorem C133_images {α : Type} (thumbs : List Nat) : ∀ items : List (Nat × α),
    withoutThumbnails thumbs (items.map fun p => ("TagGroup".toList ++ decChars p.1, p.2)) =
      .ok ((items.filter fun p => decide (p.1 ∉ thumbs)).map (·.2))
  | [] => rfl
  | (k, im) :: items => by
    rw [List.map_cons, withoutThumbnails, imageNumber_ok, C133_images thumbs items]
    show Except.ok (if k ∈ thumbs then _ else _) = _
    by_cases h : k ∈ thumbs
    · rw [if_pos h, List.filter_cons_of_neg (by simpa using h)]
    · rw [if_neg h, List.filter_cons_of_pos (by simpa using h)]
      rfl

/-- What a readable image of a file is: calibrations for at most its dimensions, a data type of one number or colour per
pixel, and values in the file. -/
def Readable (file : List UInt8) (im : Im) (val : List Nat → Nat) : Prop :=
  im.cals.length ≤ im.dims.length ∧ im.dims ≠ [] ∧ im.count = size im.dims ∧
  ∃ w, (im.dataType, w) ∈ pixelTypes ∧ (im.big = false ∨ w = 1) ∧ Holds im w file val

theorem toSpectrum_iff {im : Im} (h : im.cals.length ≤ im.dims.length) : toSpectrum im = true ↔
    (im.format = some "Spectrum image".toList ∨ im.spim = true) ∧ 2 < im.dims.length := by
  unfold toSpectrum
  rw [length_scales h, decide_eq_true_eq]

theorem signalOf_ok (filename : Text) (lazy_ : Bool) {file : List UInt8} {im : Im} {val : List Nat → Nat}
    (h : Readable file im val) (hl : lazy_ = true → im.dataType ≠ 8 ∧ im.dataType ≠ 23) :
    ∃ s, signalOf filename lazy_ false file im = .ok s ∧ SignalOf filename im val s := by
  obtain ⟨h1, h2, h3, w, h4, h5, h6⟩ := h
  obtain ⟨axs, a1, a2⟩ := C132_axes_partial h1 h2
  have hd : ∃ d, (if lazy_ then getDataLazy im false file else getData im false file) = .ok d ∧
      Shows im (fun c => if im.dataType = 8 ∨ im.dataType = 23 then swapRB (val c) else val c) d := by
    cases lazy_ with
    | false => exact C133_pixels_partial h4 h5 h3 h6
    | true =>
      obtain ⟨d, e1, e2⟩ := C133_lazy h4 (hl rfl) h5 h6
      have hor : ¬ (im.dataType = 8 ∨ im.dataType = 23) := by
        have := hl rfl; omega
      refine ⟨d, e1, ?_⟩
      simp only [hor, if_false]
      exact e2
  obtain ⟨d, d1, d2⟩ := hd
  refine ⟨⟨d, axs, im.name, signalType im, filename, toSpectrum im, im⟩, ?_, rfl, rfl, rfl, a2, d2,
    toSpectrum_iff h1, signalType_xray, signalType_cl, signalType_eels, signalType_other⟩
  unfold signalOf
  rw [a1]
  cases lazy_ <;> (dsimp only at d1 ⊢; simp only [Bool.false_eq_true, if_false, if_true] at d1 ⊢; rw [d1]; rfl)

theorem mapM_ok {α β : Type} {f : α → Py β} {R : α → β → Prop} : ∀ {l : List α},
    (∀ a ∈ l, ∃ b, f a = .ok b ∧ R a b) → ∃ bs, l.mapM f = .ok bs ∧ List.Forall₂ R l bs
  | [], _ => ⟨[], rfl, .nil⟩
  | a :: l, h => by
    obtain ⟨b, e, r⟩ := h a List.mem_cons_self
    obtain ⟨bs, e', r'⟩ := mapM_ok fun x hx => h x (List.mem_cons_of_mem _ hx)
    refine ⟨b :: bs, ?_, .cons r r'⟩
    rw [List.mapM_cons, e, e']
    rfl

/-- C133: the signals read from a file are its images, without the thumbnails, each with its own pixels, axes, title, kind
and original tags. -/
theorem C133_file (filename : Text) (lazy_ : Bool) {file : List UInt8} (thumbs : List Nat)
    (items : List (Nat × Im)) (val : Im → List Nat → Nat)
    (h : ∀ p ∈ items, p.1 ∉ thumbs → Readable file p.2 (val p.2))
    (hl : lazy_ = true → ∀ p ∈ items, p.1 ∉ thumbs → p.2.dataType ≠ 8 ∧ p.2.dataType ≠ 23) :
    ∃ sigs, fileReader filename lazy_ false file thumbs
        (some (items.map fun p => ("TagGroup".toList ++ decChars p.1, p.2))) = .ok sigs ∧
      List.Forall₂ (fun (p : Nat × Im) s => SignalOf filename p.2 (val p.2) s)
        (items.filter fun p => decide (p.1 ∉ thumbs)) sigs := by
  have hm := mapM_ok (f := signalOf filename lazy_ false file)
    (R := fun im s => SignalOf filename im (val im) s)
    (l := (items.filter fun p => decide (p.1 ∉ thumbs)).map (·.2)) (by
      intro im him
      obtain ⟨p, hp, e⟩ := List.mem_map.1 him
      subst e
      rw [List.mem_filter] at hp
      exact signalOf_ok filename lazy_ (h p hp.1 (by simpa using hp.2)) fun e => hl e p hp.1 (by simpa using hp.2))
  obtain ⟨sigs, e1, e2⟩ := hm
  refine ⟨sigs, ?_, ?_⟩
  · unfold fileReader
    dsimp only
    rw [C133_images]
    exact e1
  · rwa [List.forall₂_map_left_iff] at e2

/-- A file without images is an error. -/
theorem C133_no_images (filename : Text) (lazy_ fortran : Bool) (file : List UInt8) (thumbs : List Nat) :
    fileReader filename lazy_ fortran file thumbs none = .error .typeError := rfl

end Verif.Props.DMSignal
