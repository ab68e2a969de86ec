import Verif.Lemmas.MrcFile
/-! MRC files: C138 (header, data and axes), C139 (metadata of Direct Electron cameras). -/
namespace Verif.Props.MrcFile
open Verif Verif.MrcFile

/-! ### C138: files -/

theorem items_none (shape : List Nat) : items shape none = product shape := size_product shape

theorem fullShape_of (f : Header) (nav : Option (List Nat)) : fullShape f nav = navDims f nav ++ [f.ny, f.nx] := by
  unfold fullShape navDims
  rw [List.reverse_append]
  rfl

theorem request_of {b : List UInt8} {f : Header} {t : DType} {w : Nat} (ht : (f.mode, t, w) ∈ modes) {shape : List Nat}
    {ps : Option (List (List Nat))} (hl : 1024 + f.next + items shape ps * w ≤ b.length) :
    request b f shape ps = .ok ⟨1024 + f.next, t, false, shape, ps⟩ := by
  obtain ⟨h1, h2⟩ := dataType_of ht
  unfold request
  rw [bindOk h1, if_neg (by rw [h2]; omega)]

theorem side_none {env : Env} {nav : Option (List Nat)} : sideRead env nav none = .ok none := rfl
theorem nav_none {nav : Option (List Nat)} : navOf nav none = .ok nav := rfl

theorem deRead_of {env : Env} {md : Meta} {nav : Option (List Nat)} {csv : Option (List (Nat × Nat))} {pos : Option Positions}
    {stem diff : Bool} {a : List DeAxis × Option (List Int)} {g : Rat} (h1 : scanPositions md csv = .ok pos)
    (h2 : stemMode env md = .ok stem) (h3 : diffracting env md stem = .ok diff)
    (h4 : deAxes env md (navFor nav pos) stem diff = .ok a) (h5 : gainOf env md = .ok g) :
    deRead env md nav csv = .ok ⟨a.1, a.2, pos.map Positions.list, g⟩ := by
  unfold deRead
  rw [bindOk h1, bindOk h2, bindOk h3, bindOk h4, bindOk h5]

theorem reader_side {env : Env} {big : Bool} {b : List UInt8} {f : Header} {t : DType} {w : Nat} {nav n : Option (List Nat)} {md : Meta}
    {csv : Option (List (Nat × Nat))} {r : DeResult} {full : List Nat} (h1 : deRead env md nav csv = .ok r)
    (h2 : navOf nav (some r) = .ok n) (hf : Holds big b f) (ht : (f.mode, t, w) ∈ modes) (hfull : fullShape f n = full)
    (hl : 1024 + f.next + items full r.positions * w ≤ b.length) :
    reader env big b nav (some ⟨md, csv⟩) = .ok ⟨⟨1024 + f.next, t, false, full, r.positions⟩, full.filter (· ≠ 1),
      .de (setSizes r.axes full), some r.gain⟩ := by
  have hside : sideRead env nav (some ⟨md, csv⟩) = .ok (some r) := by
    unfold sideRead
    dsimp only
    rw [h1]
  unfold reader
  rw [bindOk hside, bindOk h2, bindOk (header_of hf), hfull]
  exact (bindOk (request_of ht (ps := r.positions) hl) _).trans rfl

theorem reader_plain {env : Env} {big : Bool} {b : List UInt8} {f : Header} {t : DType} {w : Nat} {nav : Option (List Nat)}
    (hf : Holds big b f) (ht : (f.mode, t, w) ∈ modes)
    (hlen : 1024 + f.next + product (navDims f nav ++ [f.ny, f.nx]) * w ≤ b.length) :
    reader env big b nav none = .ok ⟨⟨1024 + f.next, t, false, navDims f nav ++ [f.ny, f.nx], none⟩,
      (navDims f nav ++ [f.ny, f.nx]).filter (· ≠ 1),
      axesOf f (feiPixel big b f) nav (navDims f nav ++ [f.ny, f.nx]) none, none⟩ := by
  unfold reader
  rw [bindOk side_none, bindOk nav_none, bindOk (header_of hf), fullShape_of,
    bindOk (request_of ht (by rw [show (Option.bind none DeResult.positions) = none from rfl, items_none]; exact hlen))]
  rfl

/-- C138: an MRC file whose header is stored in the given byte order is read as the array of its sections, rows and columns (the
sections in the shape of the user, the fastest dimension first), which begins behind the header and the extended header, with the type
of its mode; the axes are x, y and z with their lengths in nm. Only when the pixels are bytes or in little endian, and when the images
have more than one row and column. -/
theorem C138_reads_partial {env : Env} {big : Bool} {b : List UInt8} {f : Header} {t : DType} {w : Nat} {nav : Option (List Nat)}
    (hf : Holds big b f) (ht : (f.mode, t, w) ∈ modes) (hb : big = true → w = 1)
    (hlen : 1024 + f.next + product (navDims f nav ++ [f.ny, f.nx]) * w ≤ b.length)
    (hnav : ∀ n, nav = some n → n ≠ [] ∧ 1 ∉ n) (hx : f.nx ≠ 1) (hy : f.ny ≠ 1) :
    ∃ s l, reader env big b nav none = .ok s ∧ s.axes = .plain l ∧ s.gain = none ∧
      s.data.offset = 1024 + f.next ∧ s.data.dtype = t ∧ (w = 1 ∨ s.data.bigEndian = big) ∧
      s.data.shape = navDims f nav ++ [f.ny, f.nx] ∧ s.data.positions = none ∧
      s.shape = (navDims f nav).filter (· ≠ 1) ++ [f.ny, f.nx] ∧ AxesFor big b f s.shape l := by
  refine ⟨_, _, reader_plain hf ht hlen, rfl, rfl, rfl, rfl, ?_, rfl, rfl, ?_, ?_⟩
  · cases hbig : big with
    | false => exact .inr rfl
    | true => exact .inl (hb hbig)
  · dsimp only
    rw [List.filter_append]
    congr 1
    rw [List.filter_cons_of_pos (by simpa using hy), List.filter_cons_of_pos (by simpa using hx)]
    rfl
  · have hlen' : (navDims f nav).length = extra nav + 1 := by
      unfold navDims extra
      rw [List.length_reverse]
      cases nav with
      | none => rfl
      | some n =>
        have := (hnav n rfl).1
        cases n with
        | nil => exact absurd rfl this
        | cons a l => simp
    refine axes_for ?_ (List.length_filter_le _ _) (by omega)
    rw [List.length_append, hlen']
    rfl

/-- C138: a mode that is not known is an error. -/
theorem C138_rejects_mode {env : Env} {big : Bool} {b : List UInt8} {f : Header} {nav : Option (List Nat)} (hf : Holds big b f)
    (hm : ∀ x ∈ modes, x.1 ≠ f.mode) : reader env big b nav none = .error .valueError := by
  unfold reader
  rw [bindOk side_none, bindOk nav_none, bindOk (header_of hf)]
  refine bindError ?_ _
  unfold request
  exact bindError (dataType_not hm) _

/-- C138: a file that ends before its data does is an error. -/
theorem C138_rejects_short {env : Env} {big : Bool} {b : List UInt8} {f : Header} {t : DType} {w : Nat} {nav : Option (List Nat)}
    (hf : Holds big b f) (ht : (f.mode, t, w) ∈ modes)
    (hlen : b.length < 1024 + f.next + product (navDims f nav ++ [f.ny, f.nx]) * w) :
    reader env big b nav none = .error .valueError := by
  unfold reader
  rw [bindOk side_none, bindOk nav_none, bindOk (header_of hf), fullShape_of]
  refine bindError ?_ _
  obtain ⟨h1, h2⟩ := dataType_of ht
  unfold request
  rw [bindOk h1, show (Option.bind none DeResult.positions) = none from rfl, items_none, if_pos (by rw [h2]; omega)]

/-- C138: a file without header is an error. -/
theorem C138_rejects_header {env : Env} {big : Bool} {b : List UInt8} {nav : Option (List Nat)} (h : b.length < 1024) :
    reader env big b nav none = .error .indexError := by
  unfold reader
  rw [bindOk side_none, bindOk nav_none]
  refine bindError ?_ _
  unfold header
  rw [if_pos h]

/-! ### C139: metadata -/

/-- C139: the lines `key = value` of the metadata file give a dictionary of the texts, if the keys are different and neither keys nor
values contain `=`. -/
theorem C139_lines_partial {kv : List (Text × Text)} (hp : ∀ p ∈ kv, Plain p.1 ∧ Plain p.2) (hnd : (kv.map Prod.fst).Nodup) :
    metaOf (linesText (kv.map fun p => p.1 ++ " = ".toList ++ p.2)) = kv := by
  unfold metaOf
  rw [fileLines_lines, List.map_map]
  · suffices h : ∀ (l : List (Text × Text)) (d : Meta), (∀ p ∈ l, Plain p.1 ∧ Plain p.2) → ((d ++ l).map Prod.fst).Nodup →
        (l.map ((fun x => x ++ ['\n']) ∘ fun p => p.1 ++ " = ".toList ++ p.2)).foldl metaLine d = d ++ l by
      exact h kv [] hp hnd
    intro l
    induction l with
    | nil => intro d _ _; simp
    | cons p l ih =>
      intro d h1 h2
      have hp := h1 p List.mem_cons_self
      rw [List.map_cons, List.foldl_cons, Function.comp_apply, metaLine_of hp.1 hp.2]
      have hnew : p.1 ∉ d.map Prod.fst := by
        rw [List.map_append, List.map_cons] at h2
        exact fun hc => (List.nodup_append.1 h2).2.2 p.1 hc p.1 List.mem_cons_self rfl
      rw [setKw_new hnew, ih (d ++ [(p.1, p.2)]) (fun q hq => h1 q (List.mem_cons_of_mem _ hq)) (by simpa using h2)]
      simp
  · intro l hl
    obtain ⟨p, hp', rfl⟩ := List.mem_map.1 hl
    obtain ⟨h1, h2⟩ := hp p hp'
    have q1 := h1.2.1
    have q2 := h1.2.2.1
    have q3 := h2.2.1
    have q4 := h2.2.2.1
    constructor
    · simp [q1, q3]
    · simp [q2, q4]

/-- C139: the frames of a scan with a list of at least two positions are each at a place of their own, in the order of the list, and
the places are within the shape. -/
theorem C139_positions_partial {rows : List (Nat × Nat)} (h : 2 ≤ rows.length) :
    ∃ p, positionsOf rows = .ok p ∧ Places rows p := positionsOf_places h

theorem diffracting_of {env : Env} {md : Meta} {c : Rat} (h : NumIs env md "Instrument Project Camera Length (centimeters)" (-1) c)
    (stem : Bool) : diffracting env md stem = .ok (decide (c ≠ -1) || stem) := by
  unfold diffracting
  rw [floatOr_of h]

/-- C139: a raster scan is an array of y, x and the image; points that are alone along an axis have no axis; what follows the header
of the image file agrees with the axes. The gain is the inverse of the units per electron. Missing: the scales (C36), scans with a time. -/
theorem C139_scan_partial {env : Env} {big : Bool} {b : List UInt8} {f : Header} {t : DType} {w x y : Nat} {md : Meta} {c g : Rat}
    {csv : Option (List (Nat × Nat))} (hf : Holds big b f) (ht : (f.mode, t, w) ∈ modes) (hs : Scans md) (hr : IsRaster md)
    (hm : IsStem env md) (hread : Readable env md) (hsize : ScanSizeIs env md x y)
    (hc : NumIs env md "Instrument Project Camera Length (centimeters)" (-1) c)
    (hg : NumIs env md "ADUs Per Electron Bin1x" 1 g) (hg0 : g ≠ 0) (hx : f.nx ≠ 1) (hy : f.ny ≠ 1)
    (hlen : 1024 + f.next + y * x * (f.ny * f.nx) * w ≤ b.length) :
    ∃ s l, reader env big b none (some ⟨md, csv⟩) = .ok s ∧ s.axes = .de l ∧ l.map DeAxis.view = scanViews x y f.nx f.ny ∧
      Numbered l ∧ s.shape.map (fun n : Nat => (n : Int)) = l.map DeAxis.size ∧ s.data.shape = s.shape ∧ s.data.positions = none ∧
      s.data.offset = 1024 + f.next ∧ s.data.dtype = t ∧ ∃ q, s.gain = some q ∧ q * g = 1 := by
  obtain ⟨a1, b1, c1, d1, kx, ky, hkx, hky, hax⟩ := scanAxes_of hread (scanSize_of hsize) (nav := none) (x := x) (y := y) rfl
  have hpos : scanPositions md csv = .ok none := by
    unfold scanPositions
    rw [raster_iff.2 hr, if_neg (by simp)]
  have hde := deRead_of (nav := none) hpos (stemMode_of hm) (diffracting_of hc true) (a := _) (by
    unfold deAxes navFor
    rw [scanning_iff.2 hs, raster_iff.2 hr]
    exact hax) (gainOf_of hg hg0)
  have hnav : ∀ A P G, navOf none (some ⟨A, some ([(x : Int), (y : Int)].filter (· ≠ 1)), P, G⟩) =
      .ok (some (scanDims x y).reverse) := by
    intro A P G
    unfold navOf
    dsimp only
    rw [natSizes_of]
  have hfull : fullShape f (some (scanDims x y).reverse) = scanDims x y ++ [f.ny, f.nx] := by
    rw [fullShape_of]
    unfold navDims
    simp
  have hprod : product (scanDims x y ++ [f.ny, f.nx]) = y * x * (f.ny * f.nx) := by
    unfold scanDims
    by_cases h1 : x = 1 <;> by_cases h2 : y = 1 <;> simp [h1, h2, product] <;> ring
  have hread' := reader_side hde (hnav _ _ _) hf ht hfull (by
    refine le_trans (Nat.add_le_add_left (Nat.mul_le_mul_right w (Nat.le_of_eq ?_)) _) hlen
    exact (items_none _).trans hprod)
  have hshape : (scanDims x y ++ [f.ny, f.nx]).filter (· ≠ 1) = scanDims x y ++ [f.ny, f.nx] := by
    refine List.filter_eq_self.2 fun v hv => ?_
    rcases List.mem_append.1 hv with hv | hv
    · unfold scanDims at hv
      rcases List.mem_append.1 hv with hv | hv
      · split at hv
        · cases hv
        · rename_i h; rw [List.mem_singleton.1 hv]; simpa using h
      · split at hv
        · cases hv
        · rename_i h; rw [List.mem_singleton.1 hv]; simpa using h
    · simp only [List.mem_cons, List.not_mem_nil, or_false] at hv
      rcases hv with rfl | rfl
      · simpa using hy
      · simpa using hx
  have hv := views_of (a := a1) (b := b1) (c := c1) (d := d1) hkx hky x y f.nx f.ny
  refine ⟨_, _, hread', rfl, hv, numbered_of _ _, ?_, hshape.symm, rfl, rfl, rfl, 1 / g, rfl, by field_simp⟩
  have e : ∀ l : List DeAxis, l.map DeAxis.size = (l.map DeAxis.view).map fun v => v.2.2.2 := fun l => by
    rw [List.map_map]; rfl
  rw [e, hv]
  dsimp only
  rw [hshape]
  unfold scanDims scanViews
  by_cases h1 : x = 1 <;> by_cases h2 : y = 1 <;> simp [h1, h2, navAxis, sigAxis]

/-- A shape given by the user is the shape of the scan, with and without metadata, for every file that is read. -/
theorem C139_given {env : Env} {big : Bool} {b : List UInt8} {f : Header} {n : List Nat} {side : Option Side} {s : Signal} (hf : Holds big b f)
    (h : reader env big b (some n) side = .ok s) : s.data.shape = n.reverse ++ [f.ny, f.nx] ∧ s.shape = (n.reverse ++ [f.ny, f.nx]).filter (· ≠ 1) := by
  unfold reader at h
  cases h1 : sideRead env (some n) side with
  | error e => rw [h1] at h; cases h
  | ok r =>
    rw [h1, bindOk rfl] at h
    have hn : navOf (some n) r = .ok (some n) := by cases r <;> rfl
    rw [bindOk hn, bindOk (header_of hf), show fullShape f (some n) = n.reverse ++ [f.ny, f.nx] by simp [fullShape]] at h
    cases h2 : request b f (n.reverse ++ [f.ny, f.nx]) (r.bind DeResult.positions) with
    | error e => rw [h2] at h; cases h
    | ok q =>
      rw [bindOk h2] at h
      cases h
      refine ⟨?_, rfl⟩
      unfold request at h2
      cases h3 : dataType f.mode with
      | error e => rw [h3] at h2; cases h2
      | ok t =>
        rw [bindOk h3] at h2
        split at h2
        · cases h2
        · cases h2
          rfl

/-- C139: a scan that is not a raster needs the file of positions. -/
theorem C139_rejects_positions {env : Env} {big : Bool} {b : List UInt8} {md : Meta} {nav : Option (List Nat)} (hs : Scans md)
    (hr : ¬IsRaster md) : reader env big b nav (some ⟨md, none⟩) = .error .valueError := by
  have hpos : scanPositions md none = .error .valueError := by
    unfold scanPositions
    have : raster md = false := by
      cases h : raster md
      · rfl
      · exact absurd (raster_iff.1 h) hr
    rw [scanning_iff.2 hs, this]
    rfl
  unfold reader
  refine bindError ?_ _
  unfold sideRead
  dsimp only
  unfold deRead
  rw [bindError hpos]

/-- C139: a scan with a list of different positions, in more than one row and column: the array of y, x and the image, and the frames go
to their positions. -/
theorem C139_custom_partial {env : Env} {big : Bool} {b : List UInt8} {f : Header} {t : DType} {w x y : Nat} {md : Meta} {c g : Rat}
    {m : Int} {size : Nat × Nat} {rows : List (Nat × Nat)} (hf : Holds big b f) (ht : (f.mode, t, w) ∈ modes) (hs : Scans md)
    (hr : ¬IsRaster md) (hm : IntIs env md "Instrument Project TEMorSTEM Mode" (-1) m) (hread : Readable env md)
    (hsize : ScanSizeIs env md size.1 size.2) (hrows : 2 ≤ rows.length) (hnd : rows.Nodup)
    (hbx : IsBound (rows.map Prod.fst) x) (hby : IsBound (rows.map Prod.snd) y) (hx1 : x ≠ 1) (hy1 : y ≠ 1)
    (hc : NumIs env md "Instrument Project Camera Length (centimeters)" (-1) c)
    (hg : NumIs env md "ADUs Per Electron Bin1x" 1 g) (hg0 : g ≠ 0) (hx : f.nx ≠ 1) (hy : f.ny ≠ 1)
    (hlen : 1024 + f.next + rows.length * (f.ny * f.nx) * w ≤ b.length) :
    ∃ s l, reader env big b none (some ⟨md, some rows⟩) = .ok s ∧ s.axes = .de l ∧ l.map DeAxis.view = scanViews x y f.nx f.ny ∧
      Numbered l ∧ s.shape = [y, x, f.ny, f.nx] ∧ s.data.shape = s.shape ∧
      s.data.positions = some (rows.map fun r => [r.2, r.1]) ∧
      s.data.offset = 1024 + f.next ∧ s.data.dtype = t ∧ ∃ q, s.gain = some q ∧ q * g = 1 := by
  have bound_unique : ∀ {l : List Nat} {n k : Nat}, IsBound l n → IsBound l k → n = k := by
    intro l n k h1 h2
    obtain ⟨h3, v, hv, e⟩ := h1
    obtain ⟨h4, u, hu, e'⟩ := h2
    have := h3 u hu
    have := h4 v hv
    omega
  obtain ⟨p, hp, hplen, -, hpn, -⟩ := positionsOf_places hrows
  obtain ⟨ny, nx, hnav, b1, b2, hk⟩ := hpn hnd
  have := bound_unique b1 hby
  have := bound_unique b2 hbx
  subst ny
  subst nx
  have hlist : p.list = rows.map fun r => [r.2, r.1] := by
    refine List.ext_getElem? fun k => ?_
    rw [List.getElem?_map]
    cases hk' : rows[k]? with
    | some r => rw [hk k r.1 r.2 hk']; rfl
    | none =>
      rw [List.getElem?_eq_none_iff] at hk'
      rw [List.getElem?_eq_none (by omega)]
      rfl
  obtain ⟨a1, b1, c1, d1, kx, ky, hkx, hky, hax⟩ :=
    scanAxes_of hread (scanSize_of hsize) (nav := some [y, x]) (x := x) (y := y) rfl
  have hpos : scanPositions md (some rows) = .ok (some p) := by
    unfold scanPositions
    have : raster md = false := by
      cases h : raster md
      · rfl
      · exact absurd (raster_iff.1 h) hr
    rw [scanning_iff.2 hs, this, if_pos (by rfl)]
    dsimp only
    rw [hp]
  obtain ⟨stem, hstem⟩ : ∃ stem, stemMode env md = .ok stem := by
    unfold stemMode
    rw [intOr_of hm]
    exact ⟨_, rfl⟩
  have hde := deRead_of (nav := none) hpos hstem (diffracting_of hc stem) (a := _) (by
    unfold deAxes navFor
    dsimp only
    rw [if_pos (by simp), hnav]
    exact hax) (gainOf_of hg hg0)
  have hdims : scanDims x y = [y, x] := by
    unfold scanDims
    rw [if_neg hx1, if_neg hy1]
    rfl
  have hnav' : ∀ A P G, navOf none (some ⟨A, some ([(x : Int), (y : Int)].filter (· ≠ 1)), P, G⟩) = .ok (some [x, y]) := by
    intro A P G
    unfold navOf
    dsimp only
    rw [natSizes_of, hdims]
    rfl
  have hfull : fullShape f (some [x, y]) = scanDims x y ++ [f.ny, f.nx] := by
    rw [fullShape_of, hdims]
    rfl
  have hit : items (scanDims x y ++ [f.ny, f.nx]) (some p.list) = rows.length * (f.ny * f.nx) := by
    unfold items
    dsimp only
    rw [hplen, hdims]
    simp [Verif.size]
  have hread' := reader_side hde (hnav' _ _ _) hf ht hfull (by
    refine le_trans (Nat.add_le_add_left (Nat.mul_le_mul_right w (Nat.le_of_eq ?_)) _) hlen
    exact hit)
  have hv := views_of (a := a1) (b := b1) (c := c1) (d := d1) hkx hky x y f.nx f.ny
  refine ⟨_, _, hread', rfl, hv, numbered_of _ _, ?_, ?_, congrArg some hlist, rfl, rfl, 1 / g, rfl, by field_simp⟩
  · dsimp only
    rw [hdims]
    simp [hx1, hy1, hx, hy]
  · dsimp only
    rw [hdims]
    simp [hx1, hy1, hx, hy]

/-- C139: images that are no scan are a movie: time, y and x of the specimen or of the diffraction pattern (when the camera length is
known), of the sizes of the file, and, if every saved frame is one of the camera and no pixel size is given, the time between the frames
is that of the camera. -/
theorem C139_movie_partial {env : Env} {big : Bool} {b : List UInt8} {f : Header} {t : DType} {w : Nat} {md : Meta} {c g fps : Rat}
    {csv : Option (List (Nat × Nat))} (hf : Holds big b f) (ht : (f.mode, t, w) ∈ modes) (hr : Scans md → IsRaster md)
    (hm : IsTem env md) (hc : NumIs env md "Instrument Project Camera Length (centimeters)" (-1) c)
    (hfps : NumIs env md "Frames Per Second" 1 fps) (hfps0 : fps ≠ 0) (hsum : NumIs env md "Autosave Movie Sum Count" 1 1)
    (hg : NumIs env md "ADUs Per Electron Bin1x" 1 g) (hg0 : g ≠ 0) (hx : f.nx ≠ 1) (hy : f.ny ≠ 1) (hz : f.nz ≠ 1)
    (hlen : 1024 + f.next + f.nz * (f.ny * f.nx) * w ≤ b.length) :
    ∃ s l, reader env big b none (some ⟨md, csv⟩) = .ok s ∧ s.axes = .de l ∧ Numbered l ∧ s.shape = [f.nz, f.ny, f.nx] ∧
      s.data.shape = s.shape ∧ s.data.positions = none ∧ s.data.offset = 1024 + f.next ∧ s.data.dtype = t ∧
      (∃ q, s.gain = some q ∧ q * g = 1) ∧
      l.map DeAxis.view = ("time".toList, "sec".toList, true, (f.nz : Int)) ::
        (if c = -1 then [sigAxis "y" "nm" f.ny, sigAxis "x" "nm" f.nx] else [sigAxis "ky" "nm^-1" f.ny, sigAxis "kx" "nm^-1" f.nx]) ∧
      ((∀ k ∈ ["Specimen Pixel Size Y (nanometers)", "Specimen Pixel Size X (nanometers)", "Diffraction Pixel Size Y",
          "Diffraction Pixel Size X"], getKw k.toList md = none) → 0 < fps →
        ∃ a rest q, l = a :: rest ∧ a.scale = .num q ∧ q * fps = 1) := by
  have hpos : scanPositions md csv = .ok none := by
    unfold scanPositions
    rw [if_neg]
    intro h
    simp only [Bool.and_eq_true, Bool.not_eq_true'] at h
    have := raster_iff.2 (hr (scanning_iff.1 h.1))
    rw [this] at h
    exact absurd h.2 (by decide)
  have hmov : movieAxes env md (decide (c ≠ -1)) = .ok (keepAxes 0 ((movieColumns (decide (c ≠ -1))).zip
      ([-1, -1, -1].zip (movieScales env md (decide (c ≠ -1)) (1 / (fps * 1))))), none) := by
    unfold movieAxes
    rw [bindOk (floatOr_of hsum), bindOk (floatOr_of hfps), if_neg (by simpa using hfps0)]
  have hde := deRead_of (nav := none) hpos (stemMode_not hm) (diffracting_of hc false) (a := _) (by
    unfold deAxes navFor
    dsimp only
    rw [if_neg (by simp), Bool.or_false]
    exact hmov) (gainOf_of hg hg0)
  have hnav : ∀ A P G, navOf none (some ⟨A, none, P, G⟩) = .ok none := fun _ _ _ => rfl
  have hfull : fullShape f none = [f.nz, f.ny, f.nx] := rfl
  have hread' := reader_side hde (hnav _ _ _) hf ht hfull (by
    refine le_trans (Nat.add_le_add_left (Nat.mul_le_mul_right w (Nat.le_of_eq ?_)) _) hlen
    exact (items_none _).trans (by simp [product]))
  obtain ⟨s0, s1, s2, hsc⟩ : ∃ s0 s1 s2, movieScales env md (decide (c ≠ -1)) (1 / (fps * 1)) = [s0, s1, s2] := by
    unfold movieScales
    split <;> exact ⟨_, _, _, rfl⟩
  have hshape : [f.nz, f.ny, f.nx].filter (· ≠ 1) = [f.nz, f.ny, f.nx] := by simp [hx, hy, hz]
  refine ⟨_, _, hread', rfl, numbered_of _ _, hshape, hshape.symm, rfl, rfl, rfl, ⟨1 / g, rfl, by field_simp⟩, ?_, ?_⟩
  · rw [hsc]
    unfold movieColumns
    by_cases hc1 : c = -1
    · simp [hc1, keepAxes, setSizes, DeAxis.view, sigAxis]
    · simp [hc1, keepAxes, setSizes, DeAxis.view, sigAxis]
  · intro hk hpos'
    have e : movieScales env md (decide (c ≠ -1)) (1 / (fps * 1)) = [.num (1 / (fps * 1)), .num 1, .num 1] := by
      unfold movieScales
      by_cases hc1 : c = -1
      · simp only [hc1, ne_eq, not_true_eq_false, decide_false, Bool.false_eq_true, if_false]
        rw [hk "Specimen Pixel Size Y (nanometers)" (by simp), hk "Specimen Pixel Size X (nanometers)" (by simp)]
      · simp only [hc1, ne_eq, not_false_eq_true, decide_true, if_true]
        rw [hk "Diffraction Pixel Size Y" (by simp), hk "Diffraction Pixel Size X" (by simp)]
    rw [e]
    have hne : Scale.num (1 / (fps * 1)) ≠ Scale.num (-1) := by
      intro h
      injection h with h
      have : 0 < 1 / (fps * 1) := by positivity
      rw [h] at this
      norm_num at this
    unfold movieColumns
    by_cases hc1 : c = -1
    · simp only [hc1, ne_eq, not_true_eq_false, decide_false, Bool.false_eq_true, if_false, List.zip_cons_cons, keepAxes,
        show ¬((-1 : Int) = 1) by decide, not_false_eq_true, if_true, hne, setSizes]
      exact ⟨_, _, _, rfl, rfl, by field_simp⟩
    · simp only [hc1, ne_eq, decide_true, if_true, List.zip_cons_cons, keepAxes,
        show ¬((-1 : Int) = 1) by decide, not_false_eq_true, hne, setSizes, if_false]
      exact ⟨_, _, _, rfl, rfl, by field_simp⟩

end Verif.Props.MrcFile
